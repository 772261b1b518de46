import Verif.Ffi.Lemmas
/-
Results after success and failure, the unchecked versions, and the addresses of the heap.
-/
namespace Verif.Ffi

/-! ### The results -/

/-- After a success every result slot holds a fresh object. -/
theorem ok_result {P c h m} (hf : c.fn ∈ Table.checked) (hl : Legal P h m c) (hu : Lucky c) {s'}
    (hrun : run P c c.fn.body ⟨h, m, (0, 0), none⟩ = .ok s') {i k} (ht : c.fn.sig[i]? = some (.result k)) :
    ∃ q n, s'.mem (c.arg i) = some (q, n) ∧ q ≠ 0 ∧ q % P.align k = 0 ∧ h q = none ∧ s'.leave q = some k := by
  refine wf_ind (u := false) hl hu.view (fun h => by cases h)
    (fun prog s => ∀ s', run P c prog s = .ok s' →
      ∃ q n, s'.mem (c.arg i) = some (q, n) ∧ q ≠ 0 ∧ q % P.align k = 0 ∧ h q = none ∧ s'.leave q = some k)
    ?_
    (fun t r s h1 _ h3 => by rw [run_cons_ok h1]; exact h3)
    (fun t r s s' h1 _ h3 => by rw [run_cons_ok h1]; exact h3)
    (fun t r s seen ld hi h1 _ _ s' h2 => by rw [run_cons_panic h1] at h2; cases h2)
    c.fn.body (inv_start P c h m) (checked_wf _ hf) s' hrun
  intro seen ld s prog hi ha hw s' hrun
  have he : (ArgTy.result k, i) ∈ effects c.fn.sig := mem_effects.2 ⟨ht, rfl⟩
  unfold last at hw
  split at hw
  · have he' : effects c.fn.sig = [] := by simpa using hw
    rw [he'] at he; cases he
  · rename_i j
    split at hw
    · rename_i k' a he'
      rw [he'] at he
      simp only [List.mem_cons, List.not_mem_nil, or_false, Prod.mk.injEq, ArgTy.result.injEq] at he
      obtain ⟨rfl, rfl⟩ := he
      simp only [Bool.and_eq_true, beq_iff_eq] at hw
      obtain ⟨rfl, -⟩ := hw
      simp only [run, exec, sig_getD ht] at hrun
      cases hq : P.alloc s.heap k with
      | none => rw [hq] at hrun; cases hrun
      | some q =>
        rw [hq] at hrun
        by_cases hsm : (s.mem (c.arg j)).isSome = true
        · simp only [hsm, if_true, Res.ok.injEq] at hrun
          subst hrun
          have hfr := P.alloc_fresh _ _ _ hq
          rw [hi.heap] at hfr
          exact ⟨q, 0, by simp, P.alloc_ne_zero _ _ _ hq, P.alloc_aligned _ _ _ hq, hfr,
            by simp [St.leave, hi.held]⟩
        · simp [hsm] at hrun
    · cases hw
  · split at hw
    · rename_i he'
      rw [he'] at he
      simp at he
    · cases hw
  · split at hw
    · rename_i he'
      rw [he'] at he
      simp at he
    · cases hw
  · split at hw
    · rename_i he'
      rw [he'] at he
      simp at he
    · cases hw
  · rename_i j1 j2 j3 j4
    split at hw
    · rename_i k1 a k' b he'
      rw [he'] at he
      simp only [List.mem_cons, List.not_mem_nil, or_false, Prod.mk.injEq, ArgTy.result.injEq, reduceCtorEq,
        false_and, false_or] at he
      obtain ⟨rfl, rfl⟩ := he
      simp only [Bool.and_eq_true, beq_iff_eq, List.contains_iff_mem] at hw
      obtain ⟨⟨⟨⟨⟨rfl, hji⟩, rfl⟩, hseen⟩, hseenl⟩, hld⟩ := hw
      obtain rfl := hji.symm
      have ht1 : c.fn.sig[j1]? = some (.consumed k1) := (mem_effects.1 (he' ▸ List.mem_cons_self ..)).1
      simp only [run] at hrun
      cases h1 : exec P c s (.take j1) with
      | ok s1 =>
        simp only [h1] at hrun
        have hs1 : s.heap s.reg.1 = some k1 ∧ s1 = { s with held := some s.reg.1 } := by
          simp only [exec, sig_getD ht1] at h1
          split at h1
          · rename_i hh
            injection h1 with h1
            exact ⟨hh, h1.symm⟩
          · cases h1
        obtain ⟨hheap, rfl⟩ := hs1
        cases h2 : exec P c { s with held := some s.reg.1 } (.compute j2) with
        | ok s2 =>
          simp only [h2] at hrun
          have hs2 : s2 = { s with held := some s.reg.1 } := by
            simp only [exec] at h2
            split at h2
            · injection h2 with h2; exact h2.symm
            · cases h2
          subst hs2
          cases h3 : exec P c { s with held := some s.reg.1 } (.nullSlot j1) with
          | ok s3 =>
            simp only [h3] at hrun
            have hs3 : s3.heap = s.heap ∧ s3.held = some s.reg.1 := by
              simp only [exec] at h3
              split at h3
              · injection h3 with h3; rw [← h3]; exact ⟨rfl, rfl⟩
              · cases h3
            cases h4 : exec P c s3 (.give j4) with
            | ok s4 =>
              simp only [h4] at hrun
              injection hrun with hrun
              subst hrun
              simp only [exec, sig_getD ht] at h4
              cases hq : P.alloc s3.heap k with
              | none => rw [hq] at h4; cases h4
              | some q =>
                rw [hq] at h4
                simp only at h4
                split at h4
                · injection h4 with h4
                  subst h4
                  have hfr := P.alloc_fresh _ _ _ hq
                  have hfr' : h q = none := by rw [← hi.heap, ← hs3.1]; exact hfr
                  have hqr : q ≠ s.reg.1 := by
                    intro e
                    rw [hs3.1, e, hheap] at hfr; cases hfr
                  refine ⟨q, 0, by simp, P.alloc_ne_zero _ _ _ hq, P.alloc_aligned _ _ _ hq, hfr', ?_⟩
                  simp [St.leave, hs3.2, Function.update_of_ne hqr]
                · cases h4
            | _ => simp only [h4] at hrun; cases hrun
          | _ => simp only [h3] at hrun; cases hrun
        | _ => simp only [h2] at hrun; cases hrun
      | _ => simp only [h1] at hrun; cases hrun
    · cases hw
  · cases hw

/-- The creation functions clear their result first, apart from those of the seeder builders. -/
theorem checked_null : ∀ f ∈ Table.checked, (f.sig.zipIdx.all fun x =>
    match x.1 with
    | .result k => decide (k = .seederBuilder) || decide (f.body.take 2 = [.check x.2, .nullSlot x.2])
    | _ => true) = true := by decide +kernel

theorem last_panic_mem {P c seen ld s prog s'} (hw : last c.fn.sig seen ld prog = true)
    (hr : run P c prog s = .panic s') : s'.mem = s.mem := by
  unfold last at hw
  split at hw
  · simp [run] at hr
  case h_6 =>
    rename_i i j' j l
    simp only [run] at hr
    cases h1 : exec P c s (.take i) with
    | ok s1 =>
      simp only [h1] at hr
      have hs1 : s1.mem = s.mem := by
        simp only [exec] at h1
        split at h1
        · split at h1
          · injection h1 with h1; rw [← h1]
          · cases h1
        · cases h1
      cases h2 : exec P c s1 (.compute j') with
      | ok s2 =>
        exfalso
        simp only [h2] at hr
        cases h3 : exec P c s2 (.nullSlot j) with
        | ok s3 =>
          simp only [h3] at hr
          cases h4 : exec P c s3 (.give l) with
          | ok s4 => simp only [h4] at hr; cases hr
          | panic s4 =>
            simp only [exec] at h4
            repeat' split at h4
            all_goals cases h4
          | ub => simp only [h4] at hr; cases hr
          | abort => simp only [h4] at hr; cases hr
        | panic s3 =>
          simp only [exec] at h3
          split at h3 <;> cases h3
        | ub => simp only [h3] at hr; cases hr
        | abort => simp only [h3] at hr; cases hr
      | panic s2 =>
        simp only [h2] at hr
        injection hr with hr
        have : s2 = s1 := by
          simp only [exec] at h2
          split at h2
          · cases h2
          · injection h2 with h2; exact h2.symm
        rw [← hr, this, hs1]
      | ub => simp only [h2] at hr; cases hr
      | abort => simp only [h2] at hr; cases hr
    | panic s1 =>
      simp only [exec] at h1
      repeat' split at h1
      all_goals cases h1
    | ub => simp only [h1] at hr; cases hr
    | abort => simp only [h1] at hr; cases hr
  all_goals
    first
    | cases hw
    | (exfalso
       revert hr
       simp only [run, exec]
       repeat' split
       all_goals simp_all)

/-- After a failure the result slot is null. -/
theorem fail_result {P c h m} (hf : c.fn ∈ Table.checked) (hl : Legal P h m c)
    (hv : ∀ i : Nat, c.fn.sig[i]? = some ArgTy.view → c.arg i ≠ 0) {s'}
    (hrun : run P c c.fn.body ⟨h, m, (0, 0), none⟩ = .panic s') {i k} (ht : c.fn.sig[i]? = some (.result k))
    (hk : k ≠ .seederBuilder) (hb : ¬ Bad 8 (c.arg i)) : s'.mem (c.arg i) = some (0, 0) := by
  have h2 : c.fn.body.take 2 = [.check i, .nullSlot i] := by
    have h1 := List.all_eq_true.1 (checked_null _ hf) (.result k, i) (List.mk_mem_zipIdx_iff_getElem?.2 ht)
    simpa [hk] using h1
  refine wf_ind (u := false) hl hv (fun h => by cases h)
    (fun prog s => (s.mem (c.arg i) = some (0, 0) ∨ prog.take 2 = [.check i, .nullSlot i] ∨
        prog.take 1 = [.nullSlot i]) → ∀ s', run P c prog s = .panic s' → s'.mem (c.arg i) = some (0, 0))
    ?_ ?_ ?_ ?_ c.fn.body (inv_start P c h m) (checked_wf _ hf) (Or.inr (Or.inl h2)) s' hrun
  · intro seen ld s prog hi ha hw hpre s' hr
    rw [last_panic_mem hw hr]
    rcases hpre with h3 | h3 | h3
    · exact h3
    · exfalso
      rcases prog with _ | ⟨t, _ | ⟨t', r⟩⟩
      · cases h3
      · simp at h3
      · simp only [List.take_succ_cons, List.take_zero, List.cons.injEq, and_true] at h3
        obtain ⟨rfl, rfl⟩ := h3
        simp [last] at hw
    · exfalso
      rcases prog with _ | ⟨t, r⟩
      · cases h3
      · simp only [List.take_succ_cons, List.take_zero, List.cons.injEq, and_true] at h3
        subst h3
        simp [last] at hw
  · intro t r s h1 hq h3 hpre s' hr
    rw [run_cons_ok h1] at hr
    refine h3 ?_ s' hr
    rcases hpre with h4 | h4 | h4
    · exact Or.inl h4
    · rcases r with _ | ⟨t', r⟩
      · simp at h4
      · simp only [List.take_succ_cons, List.take_zero, List.cons.injEq, and_true] at h4
        obtain ⟨rfl, rfl⟩ := h4
        exact Or.inr (Or.inr rfl)
    · simp only [List.take_succ_cons, List.take_zero, List.cons.injEq, and_true] at h4
      subst h4
      cases hq
  · intro t r s s1 h1 hq h3 hpre s' hr
    rw [run_cons_ok h1] at hr
    refine h3 ?_ s' hr
    left
    rcases hpre with h4 | h4 | h4
    · cases t with
      | nullSlot j =>
        simp only [exec] at h1
        split at h1
        · injection h1 with h1
          rw [← h1]
          by_cases hj : c.arg i = c.arg j
          · simp [hj]
          · simp [Function.update_of_ne hj, h4]
        · cases h1
      | load j =>
        simp only [exec] at h1
        split at h1
        · injection h1 with h1
          rw [← h1]; exact h4
        · cases h1
      | _ => cases hq
    · rcases r with _ | ⟨t', r⟩
      · simp at h4
      · simp only [List.take_succ_cons, List.take_zero, List.cons.injEq, and_true] at h4
        obtain ⟨rfl, rfl⟩ := h4
        cases hq
    · simp only [List.take_succ_cons, List.take_zero, List.cons.injEq, and_true] at h4
      subst h4
      simp only [exec] at h1
      split at h1
      · injection h1 with h1
        rw [← h1]; simp
      · cases h1
  · intro t r s seen ld hi h1 hq hwhy hpre s' hr
    rw [run_cons_panic h1] at hr
    injection hr with hr
    rw [← hr]
    rcases hpre with h4 | h4 | h4
    · exact h4
    · exfalso
      rcases r with _ | ⟨t', r⟩
      · simp at h4
      · simp only [List.take_succ_cons, List.take_zero, List.cons.injEq, and_true] at h4
        obtain ⟨rfl, rfl⟩ := h4
        cases hwhy with
        | check hp hb' =>
          rw [sig_getD ht] at hb'
          exact hb ((bad_iff _ _).1 hb')
    · exfalso
      simp only [List.take_succ_cons, List.take_zero, List.cons.injEq, and_true] at h4
      subst h4
      cases hq

/-! ### The unchecked versions -/

/-- A body without its checks and its computations. -/
def core (l : List Stmt) : List Stmt := l.filter fun t => !t.quiet

/-- The positions of the pointers. -/
def pointers (sig : List ArgTy) : List Nat := (sig.zipIdx.filter fun x => x.1.pointer).map Prod.snd

theorem pairs_core : ∀ x ∈ Table.pairs, x.1.sig = x.2.sig ∧ core x.1.body = core x.2.body ∧
    wf true x.2.sig (pointers x.2.sig) none x.2.body = true := by decide +kernel

theorem mem_pointers {sig : List ArgTy} {i : Nat} (h : i ∈ pointers sig) :
    ∃ t, sig[i]? = some t ∧ t.pointer = true := by
  obtain ⟨⟨t, j⟩, h1, rfl⟩ := List.mem_map.1 h
  rw [List.mem_filter, List.mk_mem_zipIdx_iff_getElem?] at h1
  exact ⟨t, h1.1, h1.2⟩

theorem exec_congr {P : Platform} {c c' : Call} (hs : c.fn.sig = c'.fn.sig) (ha : c.args = c'.args)
    (hg : c.good = c'.good) (hl : c.len = c'.len) (hc : c.cap = c'.cap) (s : St) (t : Stmt) :
    exec P c s t = exec P c' s t := by
  have harg : ∀ i, c.arg i = c'.arg i := fun i => by simp [Call.arg, ha]
  cases t <;> simp only [exec, hs, harg, hg, hl, hc]

theorem run_congr {P : Platform} {c c' : Call} (hs : c.fn.sig = c'.fn.sig) (ha : c.args = c'.args)
    (hg : c.good = c'.good) (hl : c.len = c'.len) (hc : c.cap = c'.cap) (l : List Stmt) (s : St) :
    run P c l s = run P c' l s := by
  induction l generalizing s with
  | nil => rfl
  | cons t r ih =>
    simp only [run, exec_congr hs ha hg hl hc]
    cases exec P c' s t with
    | ok s' => exact ih s'
    | _ => rfl

theorem core_quiet {t : Stmt} {r : List Stmt} (h : t.quiet = true) : core (t :: r) = core r := by
  simp [core, h]

theorem core_loud {t : Stmt} {r : List Stmt} (h : t.quiet = false) : core (t :: r) = t :: core r := by
  simp [core, h]

/-- When nothing is refused and everything goes well, the checks and computations can be left out. -/
theorem run_core {P c h m u} (hl : Legal P h m c)
    (hv : ∀ i : Nat, c.fn.sig[i]? = some ArgTy.view → c.arg i ≠ 0)
    (hr : ¬ Refused P m c) (hg : ∀ j, c.good j = true) {prog seen ld s} (hi : Inv P c h m seen ld s)
    (hw : wf u c.fn.sig seen ld prog = true) : run P c prog s = run P c (core prog) s := by
  refine wf_ind hl hv ?_ (fun prog s => run P c prog s = run P c (core prog) s) ?_ ?_ ?_ ?_ prog hi hw
  · intro _ i t q ht hs hm
    rw [sig_getD ht]
    exact (not_bad_iff _ _).2 fun hb => hr (.loaded ht hs hm hb)
  · intro seen ld s prog hi ha hw
    unfold last at hw
    split at hw
    case h_6 =>
      rename_i i j' j l
      rw [core_loud rfl, core_quiet rfl, core_loud rfl, core_loud rfl]
      simp only [run]
      cases h1 : exec P c s (.take i) with
      | ok s1 =>
        have h2 : exec P c s1 (.compute j') = .ok s1 := by simp [exec, hg]
        simp only [h2]
        rfl
      | _ => rfl
    case h_7 => cases hw
    all_goals rfl
  · intro t r s h1 hq h3
    rw [core_quiet hq, run_cons_ok h1]; exact h3
  · intro t r s s' h1 hq h3
    rw [core_loud (by cases t <;> first | rfl | cases hq), run_cons_ok h1, run_cons_ok h1]; exact h3
  · intro t r s seen ld hi h1 hq hwhy
    exfalso
    cases hwhy with
    | @check i hp hb =>
      have ht : c.fn.sig[i]? = some (c.fn.sig.getD i .int) :=
        getD_sig rfl (fun e => by rw [e] at hp; cases hp)
      exact hr (.arg ht hp ((bad_iff _ _).1 hb))
    | compute hb => rw [hg] at hb; cases hb
    | loaded ht hs hm hb =>
      refine hr (.loaded ht hs hm ?_)
      rw [sig_getD ht] at hb
      exact (bad_iff _ _).1 hb

theorem call_unchecked {P c h m g} (hp : (c.fn, g) ∈ Table.pairs) (hl : Legal P h m c)
    (hv : ∀ i : Nat, c.fn.sig[i]? = some ArgTy.view → c.arg i ≠ 0)
    (hr : ¬ Refused P m c) (hg : ∀ j, c.good j = true) :
    call P h m { c with fn := g } = call P h m c := by
  obtain ⟨hsig, hcore, hwf⟩ := pairs_core _ hp
  simp only at hsig hcore hwf
  have hf : c.fn ∈ Table.checked := List.mem_map.2 ⟨_, hp, rfl⟩
  have h1 := run_core hl hv hr hg (inv_start P c h m) (checked_wf _ hf)
  have h2 : run P c g.body ⟨h, m, (0, 0), none⟩ = run P c (core g.body) ⟨h, m, (0, 0), none⟩ := by
    rw [← hsig] at hwf
    refine run_core (u := true) hl hv hr hg (seen := pointers c.fn.sig) (ld := none)
      ⟨rfl, rfl, fun _ => Or.inl rfl, ?_, fun _ _ hi => by cases hi⟩ hwf
    intro i hi
    obtain ⟨t, ht, hpt⟩ := mem_pointers hi
    rw [sig_getD ht]
    exact (not_bad_iff _ _).2 fun hb => hr (.arg ht hpt hb)
  have h3 : run P { c with fn := g } g.body ⟨h, m, (0, 0), none⟩ = run P c c.fn.body ⟨h, m, (0, 0), none⟩ := by
    rw [run_congr (c := { c with fn := g }) (c' := c) (by exact hsig.symm) rfl rfl rfl rfl, h2, h1, hcore]
  unfold call
  rw [h3]

/-! ### The addresses of the heap -/

/-- Every living object has an address that is not null and aligned. -/
def Placed (P : Platform) (h : Heap) : Prop := ∀ q k, h q = some k → q ≠ 0 ∧ q % P.align k = 0

theorem Placed.zero {P h} (hp : Placed P h) : h 0 = none := by
  cases h0 : h 0 with
  | none => rfl
  | some k => exact absurd rfl (hp 0 k h0).1

theorem Placed.erase {P h} (hp : Placed P h) (p : Nat) : Placed P (Function.update h p none) := by
  intro q k hq
  by_cases e : q = p
  · subst e; simp at hq
  · rw [Function.update_of_ne e] at hq; exact hp q k hq

theorem Placed.add {P h} (hp : Placed P h) {q k} (hq : P.alloc h k = some q) :
    Placed P (Function.update h q (some k)) := by
  intro q' k' hq'
  by_cases e : q' = q
  · subst e
    simp only [Function.update_self, Option.some.injEq] at hq'
    subst hq'
    exact ⟨P.alloc_ne_zero _ _ _ hq, P.alloc_aligned _ _ _ hq⟩
  · rw [Function.update_of_ne e] at hq'; exact hp q' k' hq'

theorem exec_placed {P c s t s'} (hp : Placed P s.heap) (h : exec P c s t = .ok s' ∨ exec P c s t = .panic s') :
    Placed P s'.heap := by
  cases t with
  | give i =>
    simp only [exec] at h
    split at h
    · rename_i k _
      cases hq : P.alloc s.heap k with
      | none => simp [hq] at h
      | some q =>
        simp only [hq] at h
        split at h
        · simp only [Res.ok.injEq, reduceCtorEq, or_false] at h
          rw [← h]; exact hp.add hq
        · simp at h
    · simp at h
  | giveBytes i =>
    simp only [exec] at h
    cases hq : P.alloc s.heap (.bytes c.cap) with
    | none => simp [hq] at h
    | some q =>
      simp only [hq] at h
      split at h
      · simp only [Res.ok.injEq, reduceCtorEq, or_false] at h
        rw [← h]; exact hp.add hq
      · simp at h
  | free i =>
    simp only [exec] at h
    split at h
    · split at h
      · simp only [Res.ok.injEq, reduceCtorEq, or_false] at h
        rw [← h]; exact hp.erase _
      · simp at h
    · simp at h
  | freeBytes i =>
    simp only [exec] at h
    split at h
    · simp only [Res.ok.injEq, reduceCtorEq, or_false] at h
      rw [← h]; exact hp.erase _
    · simp at h
  | _ =>
    simp only [exec] at h
    repeat' split at h
    all_goals first
      | (simp only [Res.ok.injEq, Res.panic.injEq, reduceCtorEq, or_false, false_or] at h; rw [← h]; exact hp)
      | simp at h

theorem run_placed {P c l s s'} (hp : Placed P s.heap) (h : run P c l s = .ok s' ∨ run P c l s = .panic s') :
    Placed P s'.heap := by
  induction l generalizing s with
  | nil =>
    simp only [run, Res.ok.injEq, reduceCtorEq, or_false] at h
    rw [← h]; exact hp
  | cons t r ih =>
    simp only [run] at h
    cases ht : exec P c s t with
    | ok s1 =>
      simp only [ht] at h
      exact ih (exec_placed hp (Or.inl ht)) h
    | panic s1 =>
      simp only [ht, reduceCtorEq, false_or, Res.panic.injEq] at h
      rw [← h]; exact exec_placed hp (Or.inr ht)
    | ub => simp [ht] at h
    | abort => simp [ht] at h

theorem leave_placed {P s} (hp : Placed P (St.heap s)) : Placed P s.leave := by
  unfold St.leave
  split
  · exact hp
  · exact hp.erase _

theorem call_placed {P c h m code h' m'} (hp : Placed P h) (hc : call P h m c = .ret code h' m') : Placed P h' := by
  unfold call at hc
  cases hr : run P c c.fn.body ⟨h, m, (0, 0), none⟩ with
  | ok s =>
    rw [hr] at hc
    injection hc with _ hc _
    rw [← hc]
    exact leave_placed (run_placed hp (Or.inl hr))
  | panic s =>
    rw [hr] at hc
    injection hc with _ hc _
    rw [← hc]
    exact leave_placed (run_placed hp (Or.inr hr))
  | ub => rw [hr] at hc; cases hc
  | abort => rw [hr] at hc; cases hc

end Verif.Ffi
