import Verif.Cuda.KeyswitchLemmas
/-
The cell of the body, termination, and the value computed by the keyswitch kernel.
-/
namespace Verif.Cuda

variable {w : Nat}

/-! ### The cell of the body -/

theorem owner_lt (n : Nat) : n % ksThreads < ksThreads := Nat.mod_lt _ (by norm_num)

/-- The history of a thread after a move of thread `t`. -/
theorem move_hist (P : KsArgs w) (st st' : Block w) (t : Nat) (hi : Inv P st) (hm : Move P st t st') :
    (∃ x th rest, st.threads[t]? = some th ∧ th.todo = x :: rest ∧ x ∈ segment P t th.epoch ∧
      (∀ idx, idx ≤ P.dimOut → cell st' idx = cellEff P idx (cell st idx) x) ∧
      ∀ (u : Nat) (uh' : Thread w), st'.threads[u]? = some uh' → ∃ uh, st.threads[u]? = some uh ∧
        hist P u uh' = hist P u uh ++ if u = t then [x] else []) ∨
    ((∀ idx, cell st' idx = cell st idx) ∧
      ∀ (u : Nat) (uh' : Thread w), st'.threads[u]? = some uh' → ∃ uh, st.threads[u]? = some uh ∧
        hist P u uh' = hist P u uh) := by
  cases hm with
  | stay => exact Or.inr ⟨fun _ => rfl, fun u uh h => ⟨uh, h, rfl⟩⟩
  | load th i j idx rest h ht hl =>
    refine Or.inr ⟨fun _ => rfl, fun u uh hu => ?_⟩
    rcases getElem?_set' h hu with ⟨rfl, rfl⟩ | ⟨_, hu⟩
    · exact ⟨th, h, rfl⟩
    · exact ⟨uh, hu, rfl⟩
  | sync th h ht he ha =>
    refine Or.inr ⟨fun _ => rfl, fun u uh hu => ?_⟩
    rcases getElem?_set' h hu with ⟨rfl, rfl⟩ | ⟨_, hu⟩
    · exact ⟨th, h, by rw [hist_barrier P u th.epoch th.loaded, ← ht]⟩
    · exact ⟨uh, hu, rfl⟩
  | exec th x rest st' h ht h1 h2 h3 h4 h5 =>
    obtain ⟨_, hs⟩ := hi.suffix t th h
    rw [ht] at hs
    refine Or.inl ⟨x, th, rest, h, ht, hs.subset List.mem_cons_self, h3, fun u uh hu => ?_⟩
    rw [h1] at hu
    rcases getElem?_set' h hu with ⟨rfl, rfl⟩ | ⟨hne, hu⟩
    · exact ⟨th, h, by rw [if_pos rfl, hist_exec P u th.epoch x rest th.loaded none hs, ← ht]⟩
    · exact ⟨uh, hu, by rw [if_neg hne, List.append_nil]⟩

theorem body_thread (P : KsArgs w) (t e : Nat) (ht : t < ksThreads) (h : Instr.body ∈ segment P t e) :
    t = 0 ∧ e = 0 := by
  rcases mem_segment P t e ht _ h with ⟨_, h, _⟩ | ⟨_, h1, h2⟩ | ⟨_, _, _, h, _⟩ | ⟨_, h, _⟩
  · cases h
  · exact ⟨h1, h2⟩
  · cases h
  · cases h

/-- Once the body is written, the history of its cell only grows. -/
theorem move_after (P : KsArgs w) (st st' : Block w) (t : Nat) (hi : Inv P st)
    (hm : Move P st t st') (h1 : List Instr) (ha : After P h1 st)
    (hnb : ∀ (th : Thread w), st.threads[0]? = some th → ∀ rest, th.todo ≠ .body :: rest) :
    After P h1 st' := by
  intro th' th0' hth hth0
  rcases move_hist P st st' t hi hm with ⟨x, th, rest, k1, k2, k3, k4, k5⟩ | ⟨k4, k5⟩
  · obtain ⟨uh, e1, e2⟩ := k5 _ th' hth
    obtain ⟨uh0, f1, f2⟩ := k5 _ th0' hth0
    obtain ⟨hb, h2, hh, hc⟩ := ha uh uh0 e1 f1
    have ht128 : t < ksThreads := by
      rw [← hi.threads]; exact (List.getElem?_eq_some_iff.1 k1).1
    refine ⟨by rw [f2]; exact List.mem_append_left _ hb, ?_⟩
    rw [k4 _ (le_refl _), hc]
    by_cases hot : P.dimOut % ksThreads = t
    · rw [if_pos hot] at e2
      exact ⟨h2 ++ [x], by rw [e2, hh, List.append_assoc], by
        rw [← List.cons_append, ← List.append_assoc, List.foldl_append (l := h1 ++ .body :: h2)]; rfl⟩
    · rw [if_neg hot, List.append_nil] at e2
      refine ⟨h2, by rw [e2, hh], ?_⟩
      apply eff_other P t th.epoch _ ht128 x k3 hot
      rintro rfl
      obtain ⟨rfl, _⟩ := body_thread P t _ ht128 k3
      exact absurd k2 (hnb th k1 rest)
  · obtain ⟨uh, e1, e2⟩ := k5 _ th' hth
    obtain ⟨uh0, f1, f2⟩ := k5 _ th0' hth0
    rw [f2, e2, k4]
    exact ha uh uh0 e1 f1

/-- The state of the cell of the body: not written, or written after a part of the first segment of its
owner. -/
def BodyCell (P : KsArgs w) (st : Block w) : Prop :=
  Before P st ∨ ∃ h1, h1 <+: segment P (P.dimOut % ksThreads) 0 ∧ After P h1 st

theorem body_once (P : KsArgs w) (hf : KsFits P) (st : Block w) (hi : Inv P st) (th : Thread w)
    (h : st.threads[0]? = some th) (rest : List Instr) (ht : th.todo = .body :: rest) :
    Instr.body ∉ hist P 0 th := by
  obtain ⟨he, _⟩ := body_epoch P st hi th rest h ht
  obtain ⟨_, hs⟩ := hi.suffix 0 th h
  have hd := hf.dim
  rw [ht, he] at hs
  obtain ⟨done, hdone⟩ := hs
  have hseg : segment P 0 0 = overPart P 0 .zero ++ [.body] := by
    have h0 : ¬ 0 = P.dimIn := by omega
    simp only [segment, if_neg h0, if_true, List.append_nil]
  have hnz : Instr.body ∉ overPart P 0 Instr.zero := by
    intro h
    obtain ⟨_, _, _, h⟩ := (mem_overPart P 0 (by norm_num) _ _).1 h
    cases h
  have hcount : (segment P 0 0).count Instr.body = 1 := by
    rw [hseg, List.count_append, List.count_eq_zero_of_not_mem hnz]; rfl
  have : hist P 0 th = done := by
    unfold hist
    rw [he, ht, ← hdone]
    simp
  rw [this]
  intro hmem
  have h1 := List.count_pos_iff.2 hmem
  rw [← hdone, List.count_append, List.count_cons_self] at hcount
  omega

theorem move_body (P : KsArgs w) (hf : KsFits P) (st st' : Block w) (t : Nat) (hi : Inv P st)
    (hm : Move P st t st') (ho : P.dimOut % ksThreads ≠ 0) (hb : BodyCell P st) : BodyCell P st' := by
  obtain ⟨o, ho1⟩ : ∃ o, st.threads[P.dimOut % ksThreads]? = some o :=
    ⟨_, List.getElem?_eq_getElem (by rw [hi.threads]; exact owner_lt _)⟩
  obtain ⟨z, hz1⟩ : ∃ z, st.threads[0]? = some z :=
    ⟨_, List.getElem?_eq_getElem (by rw [hi.threads]; norm_num)⟩
  rcases hb with hb | ⟨h1, hp, ha⟩
  · by_cases hx : t = 0 ∧ ∃ rest, z.todo = .body :: rest
    · obtain ⟨rfl, rest, hx⟩ := hx
      rcases move_hist P st st' 0 hi hm with ⟨x, th, rest', k1, k2, k3, k4, k5⟩ | ⟨k4, k5⟩
      · right
        have hth : th = z := by rw [k1] at hz1; exact Option.some.inj hz1
        rw [hth, hx] at k2
        injection k2 with hxb _
        obtain ⟨_, he⟩ := body_epoch P st hi z rest hz1 hx
        refine ⟨hist P (P.dimOut % ksThreads) o, ?_, ?_⟩
        · unfold hist
          rw [he _ o ho1]
          simp only [List.range_zero, List.flatMap_nil, List.nil_append]
          exact List.take_prefix _ _
        · intro th' th0' hth' hth0'
          obtain ⟨uh, e1, e2⟩ := k5 _ th' hth'
          obtain ⟨uh0, f1, f2⟩ := k5 _ th0' hth0'
          rw [if_neg ho, List.append_nil] at e2
          rw [if_pos rfl, ← hxb] at f2
          have : uh = o := by rw [ho1] at e1; exact (Option.some.inj e1).symm
          refine ⟨by rw [f2]; simp, [], by rw [e2, this, List.append_nil], ?_⟩
          rw [k4 _ (le_refl _), ← hxb, List.foldl_append]
          simp [cellEff]
      · left
        intro th' th0' hth' hth0'
        obtain ⟨uh, e1, e2⟩ := k5 _ th' hth'
        obtain ⟨uh0, f1, f2⟩ := k5 _ th0' hth0'
        rw [e2, f2, k4]
        exact hb uh uh0 e1 f1
    · left
      intro th' th0' hth' hth0'
      rcases move_hist P st st' t hi hm with ⟨x, th, rest', k1, k2, k3, k4, k5⟩ | ⟨k4, k5⟩
      · obtain ⟨uh, e1, e2⟩ := k5 _ th' hth'
        obtain ⟨uh0, f1, f2⟩ := k5 _ th0' hth0'
        obtain ⟨b1, b2⟩ := hb uh uh0 e1 f1
        have ht128 : t < ksThreads := by
          rw [← hi.threads]; exact (List.getElem?_eq_some_iff.1 k1).1
        have hxb : x ≠ .body := by
          rintro rfl
          obtain ⟨rfl, _⟩ := body_thread P t _ ht128 k3
          have hth : th = z := by rw [k1] at hz1; exact Option.some.inj hz1
          exact hx ⟨rfl, rest', hth ▸ k2⟩
        refine ⟨?_, ?_⟩
        · rw [f2]
          intro h
          rcases List.mem_append.1 h with h | h
          · exact b1 h
          · split at h
            · exact hxb (List.mem_singleton.1 h).symm
            · simp at h
        · rw [k4 _ (le_refl _), b2]
          by_cases hot : P.dimOut % ksThreads = t
          · rw [e2, if_pos hot, List.foldl_append]; rfl
          · rw [e2, if_neg hot, List.append_nil]
            exact eff_other P t th.epoch _ ht128 x k3 hot (fun h => absurd h hxb) _
      · obtain ⟨uh, e1, e2⟩ := k5 _ th' hth'
        obtain ⟨uh0, f1, f2⟩ := k5 _ th0' hth0'
        rw [e2, f2, k4]
        exact hb uh uh0 e1 f1
  · refine Or.inr ⟨h1, hp, move_after P st st' t hi hm h1 ha ?_⟩
    intro th hth rest hrest
    exact body_once P hf st hi th hth rest hrest (ha o th ho1 hth).1

/-! ### Runs -/

theorem start_threads (P : KsArgs w) (out : DVec (BitVec w)) (t : Nat) (th : Thread w)
    (h : (ksStart P out).threads[t]? = some th) : th = ⟨0, segment P t 0, none⟩ := by
  unfold ksStart at h
  simp only [List.getElem?_map] at h
  obtain ⟨u, hu, rfl⟩ := Option.map_eq_some_iff.1 h
  have := List.getElem?_eq_some_iff.1 hu
  obtain ⟨hlt, he⟩ := this
  rw [List.getElem_range] at he
  rw [he]

theorem start_cell (P : KsArgs w) (out : DVec (BitVec w)) (idx : Nat) : cell (ksStart P out) idx = none := by
  unfold cell ksStart
  simp only [List.getElem?_replicate]
  split <;> rfl

theorem start_inv (P : KsArgs w) (out : DVec (BitVec w)) (ho : out.length = P.dimOut + 1) :
    Inv P (ksStart P out) := by
  constructor
  · simp [ksStart]
  · simp [ksStart]
  · exact ho
  · intro t th h
    rw [start_threads P out t th h]
    exact ⟨Nat.zero_le _, List.suffix_refl _⟩
  · intro t th v h hv
    rw [start_threads P out t th h] at hv
    cases hv
  · intro t u th uh h h' hlt
    rw [start_threads P out t th h, start_threads P out u uh h'] at hlt
    simp at hlt
  · intro idx _ _ th h
    rw [start_threads P out _ th h, hist_start, start_cell]
    rfl
  · intro idx _ th h hm
    rw [start_threads P out _ th h, hist_start] at hm
    simp at hm

theorem start_before (P : KsArgs w) (out : DVec (BitVec w)) : Before P (ksStart P out) := by
  intro th th0 h h0
  rw [start_threads P out _ th h, start_threads P out _ th0 h0, hist_start, hist_start, start_cell]
  exact ⟨by simp, rfl⟩

/-- A property kept by every move is kept by every schedule. -/
theorem steps_ok (P : KsArgs w) (hf : KsFits P) (Q : Block w → Prop)
    (hQ : ∀ st st' t, Inv P st → Q st → Move P st t st' → Q st') :
    ∀ (sched : List Nat) (st : Block w), Inv P st → Q st →
      ∃ st', steps P sched st = .ok st' ∧ Inv P st' ∧ Q st' := by
  intro sched
  induction sched with
  | nil => intro st hi hq; exact ⟨st, rfl, hi, hq⟩
  | cons t ts ih =>
    intro st hi hq
    obtain ⟨st1, e, hm⟩ := step_move P hf st hi t
    obtain ⟨st2, e2, h2⟩ := ih st1 (move_inv P hf st st1 t hi hm) (hQ st st1 t hi hq hm)
    refine ⟨st2, ?_, h2⟩
    unfold steps at e2 ⊢
    rw [List.foldl_cons, Out.bind_ok, e]
    exact e2

theorem steps_append (P : KsArgs w) (a b : List Nat) (st st' : Block w) (h : steps P a st = .ok st') :
    steps P (a ++ b) st = steps P b st' := by
  unfold steps at *
  rw [List.foldl_append, h]

/-! ### Termination -/

def threadMeasure (P : KsArgs w) (t : Nat) (th : Thread w) : Nat :=
  2 * th.todo.length - (if th.loaded.isSome then 1 else 0) +
    ((List.range (P.dimIn - th.epoch)).map fun k => 2 * (segment P t (th.epoch + 1 + k)).length + 1).sum

def blockMeasure (P : KsArgs w) (st : Block w) : Nat :=
  ((List.range ksThreads).map fun t =>
    match st.threads[t]? with
    | none => 0
    | some th => threadMeasure P t th).sum

theorem sum_lt_of_one {n : Nat} (f g : Nat → Nat) (t : Nat) (ht : t < n) (h : f t < g t)
    (he : ∀ u, u ≠ t → f u = g u) : ((List.range n).map f).sum < ((List.range n).map g).sum := by
  induction n with
  | zero => omega
  | succ n ih =>
    rw [List.range_succ, List.map_append, List.map_append, List.sum_append, List.sum_append]
    simp only [List.map_cons, List.map_nil, List.sum_cons, List.sum_nil, Nat.add_zero]
    by_cases htn : t = n
    · subst htn
      have : (List.range t).map f = (List.range t).map g :=
        List.map_congr_left fun u hu => he u (by have := List.mem_range.1 hu; omega)
      rw [this]; omega
    · have := ih (by omega)
      have := he n (fun e => htn e.symm)
      omega

theorem measure_set (P : KsArgs w) (st st' : Block w) (hi : Inv P st) (t : Nat) (th th' : Thread w)
    (h : st.threads[t]? = some th) (hs : st'.threads = st.threads.set t th')
    (hlt : threadMeasure P t th' < threadMeasure P t th) : blockMeasure P st' < blockMeasure P st := by
  have hl := (List.getElem?_eq_some_iff.1 h).1
  unfold blockMeasure
  apply sum_lt_of_one _ _ t (by rw [← hi.threads]; exact hl)
  · simp only [hs, h, List.getElem?_set_self hl]
    exact hlt
  · intro u hu
    simp only [hs, List.getElem?_set_ne (fun e => hu e.symm)]

/-- A move that changes something decreases the measure. -/
theorem move_measure (P : KsArgs w) (st st' : Block w) (hi : Inv P st) (t : Nat) (hm : Move P st t st') :
    st' = st ∨ blockMeasure P st' < blockMeasure P st := by
  cases hm with
  | stay => exact Or.inl rfl
  | load th i j idx rest h ht hl =>
    refine Or.inr (measure_set P st _ hi t th _ h rfl ?_)
    unfold threadMeasure
    simp only [ht, hl, List.length_cons, Option.isSome_some, Option.isSome_none]
    simp
  | sync th h ht he ha =>
    refine Or.inr (measure_set P st _ hi t th _ h rfl ?_)
    unfold threadMeasure
    obtain ⟨m, hm⟩ : ∃ m, P.dimIn - th.epoch = m + 1 := ⟨P.dimIn - th.epoch - 1, by omega⟩
    have hm' : P.dimIn - (th.epoch + 1) = m := by omega
    simp only [ht, hm, hm', List.range_succ_eq_map, List.map_cons, List.map_map, List.sum_cons]
    have : (List.range m).map ((fun k => 2 * (segment P t (th.epoch + 1 + k)).length + 1) ∘ Nat.succ) =
        (List.range m).map fun k => 2 * (segment P t (th.epoch + 1 + 1 + k)).length + 1 := by
      apply List.map_congr_left
      intro k _
      simp only [Function.comp]
      rw [show th.epoch + 1 + k.succ = th.epoch + 1 + 1 + k by omega]
    rw [this]
    simp
  | exec th x rest st' h ht h1 h2 h3 h4 h5 =>
    refine Or.inr (measure_set P st _ hi t th _ h h1 ?_)
    unfold threadMeasure
    have hle : (if th.loaded.isSome = true then 1 else 0) ≤ 1 := by split <;> omega
    simp only [ht, List.length_cons, Option.isSome_none, Bool.false_eq_true, if_false]
    omega

/-- As long as a thread has not finished, one can move. -/
theorem progress (P : KsArgs w) (hf : KsFits P) (st : Block w) (hi : Inv P st) (hn : ¬ Finished P st) :
    ∃ t st', t < ksThreads ∧ step P st t = .ok st' ∧ blockMeasure P st' < blockMeasure P st := by
  by_cases hall : ∀ (t : Nat) (th : Thread w), st.threads[t]? = some th → th.todo = []
  · -- all wait: the one that passed the fewest barriers can move
    have hne : ∃ (e t : Nat) (th : Thread w), st.threads[t]? = some th ∧ th.epoch = e := by
      refine ⟨_, 0, _, List.getElem?_eq_getElem (by rw [hi.threads]; norm_num), rfl⟩
    classical
    obtain ⟨t, th, h, he⟩ := Nat.find_spec hne
    have hmin : ∀ (u : Nat) (uh : Thread w), st.threads[u]? = some uh → th.epoch ≤ uh.epoch := by
      intro u uh hu
      rw [he]
      exact Nat.find_min' hne ⟨u, uh, hu, rfl⟩
    have hlt : th.epoch < P.dimIn := by
      by_contra hge
      apply hn
      intro x hx
      obtain ⟨u, hu⟩ := List.getElem?_of_mem hx
      have h1 := hmin u x hu
      have h2 := (hi.suffix u x hu).1
      exact ⟨by omega, hall u x hu⟩
    have harr : arrived st th.epoch = true := by
      rw [arrived_iff]
      intro u uh hu
      have h1 := hmin u uh hu
      by_cases heq : uh.epoch = th.epoch
      · exact Or.inr ⟨heq, hall u uh hu⟩
      · exact Or.inl (by omega)
    have hstep : step P st t = .ok { st with
        threads := st.threads.set t ⟨th.epoch + 1, segment P t (th.epoch + 1), none⟩ } := by
      unfold step
      simp only [h, hall t th h]
      rw [if_pos ⟨hlt, harr⟩]
    refine ⟨t, _, by rw [← hi.threads]; exact (List.getElem?_eq_some_iff.1 h).1, hstep, ?_⟩
    have hm := move_measure P st _ hi t (Move.sync th h (hall t th h) hlt harr)
    rcases hm with hm | hm
    · exfalso
      have := congrArg (fun b : Block w => b.threads[t]?) hm
      simp only [List.getElem?_set_self (List.getElem?_eq_some_iff.1 h).1, h] at this
      have := congrArg Thread.epoch (Option.some.inj this)
      simp at this
    · exact hm
  · push Not at hall
    obtain ⟨t, th, h, hne⟩ := hall
    obtain ⟨st', e, hm⟩ := step_move P hf st hi t
    refine ⟨t, st', by rw [← hi.threads]; exact (List.getElem?_eq_some_iff.1 h).1, e, ?_⟩
    rcases move_measure P st st' hi t hm with hst | hlt
    · exfalso
      subst hst
      -- the thread moved
      cases htd : th.todo with
      | nil => exact hne htd
      | cons x rest =>
        have hlen : ∀ (s' : DVec (BitVec w)) (o' : DVec (BitVec w)),
            ({ st' with threads := st'.threads.set t ⟨th.epoch, rest, none⟩, shared := s', out := o' } : Block w)
              ≠ st' := by
          intro s' o' heq
          have := congrArg (fun b : Block w => b.threads[t]?) heq
          simp only [List.getElem?_set_self (List.getElem?_eq_some_iff.1 h).1, h] at this
          have := congrArg (fun y => y.todo.length) (Option.some.inj this)
          simp [htd] at this
        have hl2 : ∀ v i j idx, th.loaded = none →
            ({ st' with threads := st'.threads.set t ⟨th.epoch, .sub i j idx :: rest, some v⟩ } : Block w)
              ≠ st' := by
          intro v i j idx hn heq
          have := congrArg (fun b : Block w => b.threads[t]?) heq
          simp only [List.getElem?_set_self (List.getElem?_eq_some_iff.1 h).1, h] at this
          have := congrArg Thread.loaded (Option.some.inj this)
          simp [hn] at this
        unfold step at e
        simp only [h, htd] at e
        cases x with
        | zero idx =>
          simp only at e
          cases hw : DVec.write st'.shared idx (some 0#w) with
          | ok s => rw [hw, Out.bind_ok] at e; exact hlen _ _ (Out.ok.inj e)
          | panic => rw [hw] at e; cases e
          | exit => rw [hw] at e; cases e
          | overrun => rw [hw] at e; cases e
        | body =>
          simp only at e
          cases hr : DVec.read P.input (P.blk * (P.dimIn + 1) + P.dimIn) with
          | ok v =>
            rw [hr, Out.bind_ok] at e
            cases hw : DVec.write st'.shared P.dimOut v with
            | ok s => rw [hw, Out.bind_ok] at e; exact hlen _ _ (Out.ok.inj e)
            | panic => rw [hw] at e; cases e
            | exit => rw [hw] at e; cases e
            | overrun => rw [hw] at e; cases e
          | panic => rw [hr] at e; cases e
          | exit => rw [hr] at e; cases e
          | overrun => rw [hr] at e; cases e
        | sub i j idx =>
          cases hl : th.loaded with
          | none =>
            simp only [hl] at e
            cases hr : DVec.read st'.shared idx with
            | ok v => rw [hr, Out.bind_ok] at e; exact hl2 _ _ _ _ hl (Out.ok.inj e)
            | panic => rw [hr] at e; cases e
            | exit => rw [hr] at e; cases e
            | overrun => rw [hr] at e; cases e
          | some v =>
            simp only [hl] at e
            cases hr : DVec.read P.input (P.blk * (P.dimIn + 1) + i) with
            | ok a =>
              rw [hr, Out.bind_ok] at e
              cases hr2 : DVec.read P.ksk (kskIndex P i j idx) with
              | ok k =>
                rw [hr2, Out.bind_ok] at e
                cases hw : DVec.write st'.shared idx
                  (v.bind fun v => k.bind fun k => a.map fun a => v - k * gpuDigit P.b P.l a j) with
                | ok s => rw [hw, Out.bind_ok] at e; exact hlen _ _ (Out.ok.inj e)
                | panic => rw [hw] at e; cases e
                | exit => rw [hw] at e; cases e
                | overrun => rw [hw] at e; cases e
              | panic => rw [hr2] at e; cases e
              | exit => rw [hr2] at e; cases e
              | overrun => rw [hr2] at e; cases e
            | panic => rw [hr] at e; cases e
            | exit => rw [hr] at e; cases e
            | overrun => rw [hr] at e; cases e
        | out idx =>
          simp only at e
          cases hr : DVec.read st'.shared idx with
          | ok v =>
            rw [hr, Out.bind_ok] at e
            cases hw : DVec.write st'.out idx v with
            | ok s => rw [hw, Out.bind_ok] at e; exact hlen _ _ (Out.ok.inj e)
            | panic => rw [hw] at e; cases e
            | exit => rw [hw] at e; cases e
            | overrun => rw [hw] at e; cases e
          | panic => rw [hr] at e; cases e
          | exit => rw [hr] at e; cases e
          | overrun => rw [hr] at e; cases e
    · exact hlt

/-- A schedule that contains every thread makes progress. -/
theorem steps_measure (P : KsArgs w) (hf : KsFits P) : ∀ (sched : List Nat) (st : Block w), Inv P st →
    ∃ st', steps P sched st = .ok st' ∧ Inv P st' ∧
      (blockMeasure P st' < blockMeasure P st ∨ (st' = st ∧ ∀ t ∈ sched, step P st t = .ok st)) := by
  intro sched
  induction sched with
  | nil => intro st hi; exact ⟨st, rfl, hi, Or.inr ⟨rfl, by simp⟩⟩
  | cons t ts ih =>
    intro st hi
    obtain ⟨st1, e, hm⟩ := step_move P hf st hi t
    have hi1 := move_inv P hf st st1 t hi hm
    obtain ⟨st2, e2, hi2, h2⟩ := ih st1 hi1
    refine ⟨st2, ?_, hi2, ?_⟩
    · unfold steps at e2 ⊢
      rw [List.foldl_cons, Out.bind_ok, e]
      exact e2
    · rcases move_measure P st st1 hi t hm with rfl | hlt
      · rcases h2 with h2 | ⟨h2, h3⟩
        · exact Or.inl h2
        · refine Or.inr ⟨h2, ?_⟩
          intro u hu
          rcases List.mem_cons.1 hu with rfl | hu
          · exact e
          · exact h3 u hu
      · left
        rcases h2 with h2 | ⟨rfl, _⟩
        · omega
        · exact hlt

theorem round_progress (P : KsArgs w) (hf : KsFits P) (st : Block w) (hi : Inv P st)
    (hn : ¬ Finished P st) : ∃ st', steps P (List.range ksThreads) st = .ok st' ∧ Inv P st' ∧
      blockMeasure P st' < blockMeasure P st := by
  obtain ⟨st', e, hi', h⟩ := steps_measure P hf (List.range ksThreads) st hi
  refine ⟨st', e, hi', ?_⟩
  rcases h with h | ⟨_, h⟩
  · exact h
  · obtain ⟨t, st1, ht, e1, hlt⟩ := progress P hf st hi hn
    rw [h t (List.mem_range.2 ht)] at e1
    have := Out.ok.inj e1
    subst this
    omega

theorem finished_round (P : KsArgs w) (st : Block w) (hn : Finished P st) (sched : List Nat) :
    steps P sched st = .ok st := by
  induction sched with
  | nil => rfl
  | cons t ts ih =>
    have : step P st t = .ok st := by
      unfold step
      cases h : st.threads[t]? with
      | none => rfl
      | some th =>
        obtain ⟨h1, h2⟩ := hn th (List.mem_of_getElem? h)
        simp only [h2]
        rw [if_neg (by omega)]
    unfold steps at ih ⊢
    rw [List.foldl_cons, Out.bind_ok, this]
    exact ih

theorem rounds_finish (P : KsArgs w) (hf : KsFits P) (n : Nat) : ∀ (st : Block w), Inv P st →
    blockMeasure P st ≤ n →
    ∃ st', steps P ((List.range n).flatMap fun _ => List.range ksThreads) st = .ok st' ∧
      Finished P st' := by
  induction n with
  | zero =>
    intro st hi hm
    refine ⟨st, rfl, ?_⟩
    by_contra hn
    obtain ⟨_, _, _, h⟩ := round_progress P hf st hi hn
    omega
  | succ n ih =>
    intro st hi hm
    by_cases hfin : Finished P st
    · exact ⟨st, finished_round P st hfin _, hfin⟩
    · obtain ⟨st1, e, hi1, h⟩ := round_progress P hf st hi hfin
      obtain ⟨st2, e2, h2⟩ := ih st1 hi1 (by omega)
      refine ⟨st2, ?_, h2⟩
      have hflat : ((List.range (n + 1)).flatMap fun _ => List.range ksThreads) =
          List.range ksThreads ++ (List.range n).flatMap fun _ => List.range ksThreads := by
        rw [List.range_succ_eq_map (n := n), List.flatMap_cons, List.flatMap_map]
      rw [hflat, steps_append P _ _ st st1 e]
      exact e2

theorem sum_le_sum' (l : List Nat) (f g : Nat → Nat) (h : ∀ t ∈ l, f t ≤ g t) :
    (l.map f).sum ≤ (l.map g).sum := by
  induction l with
  | nil => exact le_refl _
  | cons a l ih =>
    simp only [List.map_cons, List.sum_cons]
    have := h a List.mem_cons_self
    have := ih fun t ht => h t (List.mem_cons_of_mem _ ht)
    omega

theorem start_measure (P : KsArgs w) (out : DVec (BitVec w)) :
    blockMeasure P (ksStart P out) ≤ totalSteps P := by
  unfold blockMeasure totalSteps
  apply sum_le_sum'
  intro t ht
  have ht' := List.mem_range.1 ht
  have h : (ksStart P out).threads[t]? = some ⟨0, segment P t 0, none⟩ := by
    unfold ksStart
    simp [List.getElem?_range ht']
  simp only [h]
  unfold threadMeasure
  rw [List.range_succ_eq_map]
  simp only [List.map_cons, List.map_map, List.sum_cons, Nat.sub_zero]
  have : (List.range P.dimIn).map ((fun e => 2 * (segment P t e).length + 1) ∘ Nat.succ) =
      (List.range P.dimIn).map fun k => 2 * (segment P t (0 + 1 + k)).length + 1 := by
    apply List.map_congr_left
    intro k _
    simp only [Function.comp]
    rw [show 0 + 1 + k = k.succ by omega]
  rw [this]
  simp

/-- Measures never grow. -/
theorem steps_measure_le (P : KsArgs w) (hf : KsFits P) (sched : List Nat) (st st' : Block w)
    (hi : Inv P st) (h : steps P sched st = .ok st') : blockMeasure P st' ≤ blockMeasure P st := by
  obtain ⟨st1, e, _, h1⟩ := steps_measure P hf sched st hi
  rw [h] at e
  have := Out.ok.inj e
  subst this
  rcases h1 with h1 | ⟨rfl, _⟩
  · omega
  · exact le_refl _

end Verif.Cuda
