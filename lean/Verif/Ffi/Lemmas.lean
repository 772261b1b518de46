import Verif.Ffi.Spec
/-
A static check of the bodies of the functions (`wf`), and the proof that a function that passes it keeps the ledger
of the caller exact.
-/
namespace Verif.Ffi

/-- Parameters that do not change hands. -/
def ArgTy.plain : ArgTy → Bool
  | .ref _ | .raw _ | .view | .int => true
  | _ => false

/-- The parameters that change hands, with their positions. -/
def effects (sig : List ArgTy) : List (ArgTy × Nat) := sig.zipIdx.filter fun x => !x.1.plain

/-- The allowed ends of a body: `seen` are the parameters already checked, `ld` the slot already loaded, with whether
the loaded pointer was checked. -/
def last (sig : List ArgTy) (seen : List Nat) (ld : Option (Nat × Bool)) : List Stmt → Bool
  | [] => decide (effects sig = [])
  | [.give i] =>
    match effects sig with
    | [(.result _, a)] => i == a && seen.contains i
    | _ => false
  | [.free i] =>
    match effects sig with
    | [(.destroyed _, a)] => i == a && seen.contains i
    | _ => false
  | [.giveBytes i] =>
    match effects sig with
    | [(.resultBuf, a)] => i == a && seen.contains i
    | _ => false
  | [.freeBytes i, .nullSlot j] =>
    match effects sig with
    | [(.destroyedBuf, a)] => i == a && j == a && seen.contains i && ld == some (i, true)
    | _ => false
  | [.take i, .compute _, .nullSlot j, .give l] =>
    match effects sig with
    | [(.consumed _, a), (.result _, b)] =>
      i == a && j == a && l == b && seen.contains i && seen.contains l && ld == some (i, true)
    | _ => false
  | _ => false

/-- Every pointer has been checked. -/
def allSeen (sig : List ArgTy) (seen : List Nat) : Bool :=
  sig.zipIdx.all fun x => !x.1.pointer || seen.contains x.2

/-- The check: a prefix that changes nothing but result slots, in which every use of a pointer comes after its check,
then, when every pointer has been checked, one of the ends above. With `u`, loaded pointers count as checked. -/
def wf (u : Bool) (sig : List ArgTy) (seen : List Nat) (ld : Option (Nat × Bool)) : List Stmt → Bool
  | [] => allSeen sig seen && last sig seen ld []
  | s :: r => (allSeen sig seen && last sig seen ld (s :: r)) ||
    match s with
    | .check i => (sig.getD i .int).pointer && wf u sig (i :: seen) ld r
    | .deref i =>
      (match sig.getD i .int with
        | .ref _ => seen.contains i
        | .raw _ => seen.contains i
        | .view => true
        | _ => false) && wf u sig seen ld r
    | .compute _ => wf u sig seen ld r
    | .nullSlot i =>
      (match sig.getD i .int with
        | .result _ => seen.contains i
        | _ => false) && wf u sig seen ld r
    | .load i =>
      (match sig.getD i .int with
        | .consumed _ => seen.contains i
        | .destroyedBuf => seen.contains i
        | _ => false) && wf u sig seen (some (i, u)) r
    | .checkLoaded i =>
      match ld with
      | some (j, _) => i == j && wf u sig seen (some (i, true)) r
      | none => false
    | _ => false

/-- Every checked function passes. -/
theorem checked_wf : ∀ f ∈ Table.checked, wf false f.sig [] none f.body = true := by decide +kernel

theorem bad_iff (a p : Nat) : bad a p = true ↔ Bad a p := by
  simp [bad, Bad]

theorem not_bad_iff (a p : Nat) : bad a p = false ↔ ¬ Bad a p := by
  rw [← bad_iff]; simp

theorem getD_sig {sig : List ArgTy} {i : Nat} {t : ArgTy} (h : sig.getD i .int = t) (ht : t ≠ .int) :
    sig[i]? = some t := by
  rw [List.getD_eq_getElem?_getD] at h
  cases hi : sig[i]? with
  | none => rw [hi] at h; exact absurd h.symm ht
  | some u => rw [hi] at h; exact congrArg some h

theorem sig_getD {sig : List ArgTy} {i : Nat} {t : ArgTy} (h : sig[i]? = some t) : sig.getD i .int = t := by
  rw [List.getD_eq_getElem?_getD, h]; rfl

/-- The ledger only moves by the parameters that change hands. -/
theorem noteCall_effects (c : Call) (code : Nat) (b a : Mem) (own : Ledger) :
    noteCall c code b a own =
      (effects c.fn.sig).foldl (fun o x => note code b a o x.1 (c.arg x.2)) own := by
  unfold noteCall effects
  generalize c.fn.sig.zipIdx = l
  induction l generalizing own with
  | nil => rfl
  | cons x l ih =>
    obtain ⟨t, i⟩ := x
    rw [List.foldl_cons, ih]
    cases t <;> simp [ArgTy.plain, note]

theorem mem_effects {sig : List ArgTy} {t : ArgTy} {i : Nat} :
    (t, i) ∈ effects sig ↔ sig[i]? = some t ∧ t.plain = false := by
  simp [effects, List.mk_mem_zipIdx_iff_getElem?]

theorem ArgTy.inSlot_isSlot {t : ArgTy} (h : t.inSlot = true) : t.isSlot = true := by
  cases t <;> first | rfl | cases h

/-- The state in the prefix of a body. -/
structure Inv (P : Platform) (c : Call) (h : Heap) (m : Mem) (seen : List Nat) (ld : Option (Nat × Bool)) (s : St) :
    Prop where
  heap : s.heap = h
  held : s.held = none
  mem : ∀ p, s.mem p = m p ∨ ∃ i k, c.fn.sig[i]? = some (.result k) ∧ c.arg i = p ∧ ¬ Bad 8 p ∧ (m p).isSome ∧
    s.mem p = some (0, 0)
  sn : ∀ i ∈ seen, bad ((c.fn.sig.getD i .int).align P) (c.arg i) = false
  lo : ∀ i b, ld = some (i, b) → i ∈ seen ∧ (∃ t, c.fn.sig[i]? = some t ∧ t.inSlot = true) ∧
    m (c.arg i) = some s.reg ∧
    (b = true → bad ((c.fn.sig.getD i .int).loadedAlign P) s.reg.1 = false)

/-- Slots other than results are not touched by the prefix. -/
theorem Inv.slot {P c h m seen ld s} (hi : Inv P c h m seen ld s) {own} (hl : Legal P own m c) {i t}
    (ht : c.fn.sig[i]? = some t) (hs : t.isSlot = true) (hr : ∀ k, t ≠ .result k) :
    s.mem (c.arg i) = m (c.arg i) := by
  rcases hi.mem (c.arg i) with h1 | ⟨j, k, hj, ha, hb, -, -⟩
  · exact h1
  · exfalso
    have hij : i ≠ j := by
      intro e
      rw [← e, ht] at hj
      exact hr k (by injection hj)
    exact hb (hl.apart i j t _ hij ht hj hs rfl ha.symm)

theorem Inv.isSome {P c h m seen ld s} (hi : Inv P c h m seen ld s) (p : Nat) : (s.mem p).isSome = (m p).isSome := by
  rcases hi.mem p with h1 | ⟨j, k, -, -, -, h2, h3⟩
  · rw [h1]
  · rw [h2, h3]; rfl

/-- When a call fails and nothing was taken, the ledger does not move. -/
theorem note_fail {P c h m seen ld s} (hi : Inv P c h m seen ld s) (hl : Legal P h m c) (h0 : h 0 = none) :
    noteCall c 1 m s.mem h = h := by
  rw [noteCall_effects]
  have key : ∀ l : List (ArgTy × Nat), (∀ x ∈ l, c.fn.sig[x.2]? = some x.1) →
      l.foldl (fun o x => note 1 m s.mem o x.1 (c.arg x.2)) h = h := by
    intro l
    induction l with
    | nil => intro _; rfl
    | cons x l ih =>
      intro hx
      obtain ⟨t, i⟩ := x
      have ht := hx (t, i) (List.mem_cons_self ..)
      have hstep : note 1 m s.mem h t (c.arg i) = h := by
        have hslot : ∀ (hs : t.isSlot = true) (hr : ∀ k, t ≠ .result k) (q n z : Nat), m (c.arg i) = some (q, n) →
            s.mem (c.arg i) = some (0, z) → Function.update h q none = h := by
          intro hs hr q n z h1 h2
          rw [hi.slot hl ht hs hr, h1] at h2
          simp only [Option.some.injEq, Prod.mk.injEq] at h2
          rw [h2.1]
          funext p
          by_cases hp : p = 0
          · subst hp; simp [h0]
          · simp [Function.update_of_ne hp]
        cases t with
        | consumed k =>
          simp only [note]
          split
          · rename_i q n z h1 h2; exact hslot rfl (by simp) q n z h1 h2
          · rfl
        | destroyedBuf =>
          simp only [note]
          split
          · rename_i q n z h1 h2; exact hslot rfl (by simp) q n z h1 h2
          · rfl
        | _ => simp [note]
      rw [List.foldl_cons, hstep]
      exact ih fun y hy => hx y (List.mem_cons_of_mem _ hy)
  refine key _ fun x hx => ?_
  obtain ⟨t, i⟩ := x
  exact (mem_effects.1 hx).1

/-- What a body that passes the check does. -/
def Safe (P : Platform) (c : Call) (h : Heap) (m : Mem) : Res → Prop
  | .ok s => s.leave = noteCall c 0 m s.mem h
  | .panic s => s.heap = h ∧ s.held = none ∧ ∃ seen ld, Inv P c h m seen ld s
  | .ub => False
  | .abort => True

theorem run_cons_ok {P c t ts s s'} (h : exec P c s t = .ok s') : run P c (t :: ts) s = run P c ts s' := by
  simp [run, h]

theorem run_cons_panic {P c t ts s s'} (h : exec P c s t = .panic s') : run P c (t :: ts) s = .panic s' := by
  simp [run, h]

theorem run_cons_abort {P c t ts s} (h : exec P c s t = .abort) : run P c (t :: ts) s = .abort := by
  simp [run, h]

/-- The ends. -/
theorem safe_last {P c h m seen ld s} (hi : Inv P c h m seen ld s) (hl : Legal P h m c) (hu : Lucky c)
    {prog} (hw : last c.fn.sig seen ld prog = true) : Safe P c h m (run P c prog s) := by
  unfold last at hw
  split at hw
  · -- nothing
    have he : effects c.fn.sig = [] := by simpa using hw
    simp [run, Safe, St.leave, hi.held, hi.heap, noteCall_effects, he]
  · -- give
    rename_i i
    split at hw
    · rename_i k a he
      simp only [Bool.and_eq_true, beq_iff_eq, List.contains_iff_mem] at hw
      obtain ⟨rfl, hseen⟩ := hw
      have ht : c.fn.sig[i]? = some (.result k) := (mem_effects.1 (he ▸ List.mem_singleton.2 rfl)).1
      have hnb := hi.sn i hseen
      rw [sig_getD ht] at hnb
      have hm : (s.mem (c.arg i)).isSome = true := by
        rw [hi.isSome]
        rcases hl.args i _ ht with h1 | h1
        · exact absurd h1 ((not_bad_iff _ _).1 hnb)
        · exact h1
      cases hq : P.alloc s.heap k with
      | none =>
        rw [run_cons_abort (by simp only [exec, sig_getD ht, hq])]
        trivial
      | some q =>
        rw [run_cons_ok (by simp only [exec, sig_getD ht, hq, hm, if_true]; rfl)]
        simp [run, Safe, St.leave, hi.held, noteCall_effects, he, note, hi.heap]
    · cases hw
  · -- free
    rename_i i
    split at hw
    · rename_i k a he
      simp only [Bool.and_eq_true, beq_iff_eq, List.contains_iff_mem] at hw
      obtain ⟨rfl, hseen⟩ := hw
      have ht : c.fn.sig[i]? = some (.destroyed k) := (mem_effects.1 (he ▸ List.mem_singleton.2 rfl)).1
      have hnb := hi.sn i hseen
      rw [sig_getD ht] at hnb
      have hm : s.heap (c.arg i) = some k := by
        rw [hi.heap]
        rcases hl.args i _ ht with h1 | h1
        · exact absurd h1 ((not_bad_iff _ _).1 hnb)
        · exact h1
      rw [run_cons_ok (by simp only [exec, sig_getD ht, hm, if_true]; rfl)]
      simp [run, Safe, St.leave, hi.held, noteCall_effects, he, note, hi.heap]
    · cases hw
  · -- giveBytes
    rename_i i
    split at hw
    · rename_i a he
      simp only [Bool.and_eq_true, beq_iff_eq, List.contains_iff_mem] at hw
      obtain ⟨rfl, hseen⟩ := hw
      have ht : c.fn.sig[i]? = some .resultBuf := (mem_effects.1 (he ▸ List.mem_singleton.2 rfl)).1
      have hnb := hi.sn i hseen
      rw [sig_getD ht] at hnb
      have hm : (s.mem (c.arg i)).isSome = true := by
        rw [hi.isSome]
        rcases hl.args i _ ht with h1 | h1
        · exact absurd h1 ((not_bad_iff _ _).1 hnb)
        · exact h1
      cases hq : P.alloc s.heap (.bytes c.cap) with
      | none =>
        rw [run_cons_abort (by simp only [exec, hq])]
        trivial
      | some q =>
        rw [run_cons_ok (by simp only [exec, hq, hm, if_true]; rfl)]
        simp [run, Safe, St.leave, hi.held, noteCall_effects, he, note, hi.heap, hu.cap]
    · cases hw
  · -- freeBytes
    rename_i i j
    split at hw
    · rename_i a he
      simp only [Bool.and_eq_true, beq_iff_eq, List.contains_iff_mem] at hw
      obtain ⟨⟨⟨rfl, hji⟩, hseen⟩, hld⟩ := hw
      obtain rfl := hji.symm
      have ht : c.fn.sig[i]? = some .destroyedBuf := (mem_effects.1 (he ▸ List.mem_singleton.2 rfl)).1
      have hnb := hi.sn i hseen
      rw [sig_getD ht] at hnb
      obtain ⟨-, -, hreg, hrb⟩ := hi.lo i true hld
      have hrb := hrb rfl
      have hm : s.heap s.reg.1 = some (.bytes s.reg.2) := by
        rw [hi.heap]
        rcases hl.args i _ ht with h1 | ⟨q, n, h1, h2⟩
        · exact absurd h1 ((not_bad_iff _ _).1 hnb)
        · rw [hreg] at h1
          injection h1 with h1
          rw [h1] at hrb ⊢
          rcases h2 with h2 | h2
          · rw [h2] at hrb; simp [bad] at hrb
          · exact h2
      have hsl := hi.slot hl ht rfl (by simp)
      rw [run_cons_ok (by simp only [exec, hm, if_true]; rfl),
        run_cons_ok (by simp only [exec, hsl, hreg, Option.isSome_some, if_true]; rfl)]
      have hreg' : m (c.arg i) = some (s.reg.1, s.reg.2) := hreg
      simp [run, Safe, St.leave, hi.held, noteCall_effects, he, note, hi.heap, hreg']
    · cases hw
  · -- take
    rename_i i j' j l
    split at hw
    · rename_i k a k' b he
      simp only [Bool.and_eq_true, beq_iff_eq, List.contains_iff_mem] at hw
      obtain ⟨⟨⟨⟨⟨rfl, hji⟩, rfl⟩, hseen⟩, hseenl⟩, hld⟩ := hw
      obtain rfl := hji.symm
      have ht : c.fn.sig[i]? = some (.consumed k) := (mem_effects.1 (he ▸ List.mem_cons_self ..)).1
      have htl : c.fn.sig[l]? = some (.result k') :=
        (mem_effects.1 (he ▸ List.mem_cons_of_mem _ (List.mem_singleton.2 rfl))).1
      have hnb := hi.sn i hseen
      rw [sig_getD ht] at hnb
      have hnbl := hi.sn l hseenl
      rw [sig_getD htl] at hnbl
      obtain ⟨-, -, hreg, hrb⟩ := hi.lo i true hld
      have hrb := hrb rfl
      rw [sig_getD ht] at hrb
      have hm : s.heap s.reg.1 = some k := by
        rw [hi.heap]
        rcases hl.args i _ ht with h1 | ⟨q, n, h1, h2⟩
        · exact absurd h1 ((not_bad_iff _ _).1 hnb)
        · rw [hreg] at h1
          injection h1 with h1
          rw [h1] at hrb ⊢
          rcases h2 with h2 | h2
          · exact absurd h2 ((not_bad_iff _ _).1 hrb)
          · exact h2
      have hsl := hi.slot hl ht rfl (by simp)
      have hml : (s.mem (c.arg l)).isSome = true := by
        rw [hi.isSome]
        rcases hl.args l _ htl with h1 | h1
        · exact absurd h1 ((not_bad_iff _ _).1 hnbl)
        · exact h1
      have hil : i ≠ l := by
        intro e; rw [e, htl] at ht; cases ht
      have hne : c.arg i ≠ c.arg l := by
        intro e
        exact ((not_bad_iff _ _).1 hnb) (hl.apart i l _ _ hil ht htl rfl rfl e)
      rw [run_cons_ok (by simp only [exec, sig_getD ht, hm, if_true]; rfl),
        run_cons_ok (by simp only [exec, hu.consume i k ht, if_true]; rfl),
        run_cons_ok (by simp only [exec, hsl, hreg, Option.isSome_some, if_true]; rfl)]
      cases hq : P.alloc s.heap k' with
      | none =>
        rw [run_cons_abort (by simp only [exec, sig_getD htl, hq])]
        trivial
      | some q =>
        have hml' : (Function.update s.mem (c.arg i) (some (0, 0)) (c.arg l)).isSome = true := by
          rw [Function.update_of_ne (Ne.symm hne)]; exact hml
        rw [run_cons_ok (by simp only [exec, sig_getD htl, hq, hml', if_true]; rfl)]
        have hqr : q ≠ s.reg.1 := by
          intro e
          have := P.alloc_fresh _ _ _ hq
          rw [e, hm] at this; cases this
        have hreg' : m (c.arg i) = some (s.reg.1, s.reg.2) := hreg
        simp only [run, Safe, St.leave, noteCall_effects, he, List.foldl_cons, List.foldl_nil, note, hreg',
          Function.update_self, Function.update_of_ne hne, hi.heap]
        exact Function.update_comm hqr _ _ _
    · cases hw
  · cases hw

theorem allSeen_mem {sig : List ArgTy} {seen : List Nat} (h : allSeen sig seen = true) {i : Nat} {t : ArgTy}
    (ht : sig[i]? = some t) (hp : t.pointer = true) : i ∈ seen := by
  have h1 := List.all_eq_true.1 h (t, i) (List.mk_mem_zipIdx_iff_getElem?.2 ht)
  simpa [hp] using h1

/-- Why a statement of the prefix panics. -/
inductive Why (P : Platform) (c : Call) (m : Mem) (s : St) : Stmt → Prop
  | check {i} (hp : (c.fn.sig.getD i .int).pointer = true) (h : bad ((c.fn.sig.getD i .int).align P) (c.arg i) = true) : Why P c m s (.check i)
  | compute {j} (h : c.good j = false) : Why P c m s (.compute j)
  | loaded {i t} (ht : c.fn.sig[i]? = some t) (hs : t.inSlot = true) (hm : m (c.arg i) = some s.reg)
      (h : bad ((c.fn.sig.getD i .int).loadedAlign P) s.reg.1 = true) : Why P c m s (.checkLoaded i)

/-- The statements that change nothing. -/
def Stmt.quiet : Stmt → Bool
  | .check _ | .deref _ | .compute _ | .checkLoaded _ => true
  | _ => false

/-- The other statements of the prefix. -/
def Stmt.soft : Stmt → Bool
  | .nullSlot _ | .load _ => true
  | _ => false

/-- Induction over the prefix of a body that passes the check. -/
theorem wf_ind {P c h m u} (hl : Legal P h m c) (hv : ∀ i : Nat, c.fn.sig[i]? = some ArgTy.view → c.arg i ≠ 0)
    (hu : u = true → ∀ (i : Nat) t q, c.fn.sig[i]? = some t → t.inSlot = true → m (c.arg i) = some q →
      bad ((c.fn.sig.getD i .int).loadedAlign P) q.1 = false)
    (Q : List Stmt → St → Prop)
    (hlast : ∀ seen ld s prog, Inv P c h m seen ld s → allSeen c.fn.sig seen = true →
      last c.fn.sig seen ld prog = true → Q prog s)
    (hskip : ∀ t r s, exec P c s t = .ok s → t.quiet = true → Q r s → Q (t :: r) s)
    (hstep : ∀ t r s s', exec P c s t = .ok s' → t.soft = true → Q r s' → Q (t :: r) s)
    (hpanic : ∀ t r s seen ld, Inv P c h m seen ld s → exec P c s t = .panic s → t.quiet = true →
      Why P c m s t → Q (t :: r) s)
    (prog : List Stmt) {seen ld s} (hi : Inv P c h m seen ld s) (hw : wf u c.fn.sig seen ld prog = true) :
    Q prog s := by
  induction prog generalizing seen ld s with
  | nil =>
    rw [wf, Bool.and_eq_true] at hw
    exact hlast _ _ _ _ hi hw.1 hw.2
  | cons t r ih =>
    cases t with
    | check i =>
      rw [wf, Bool.or_eq_true, Bool.and_eq_true] at hw
      rcases hw with hw | hw
      · exact hlast _ _ _ _ hi hw.1 hw.2
      rw [Bool.and_eq_true] at hw
      obtain ⟨hp, hw⟩ := hw
      by_cases hb : bad ((c.fn.sig.getD i .int).align P) (c.arg i) = true
      · exact hpanic _ _ _ _ _ hi (by simp only [exec, hb, if_true]) rfl (.check hp hb)
      · refine hskip _ _ _ (by simp only [exec, hb]; rfl) rfl (ih ⟨hi.heap, hi.held, hi.mem, ?_, ?_⟩ hw)
        · intro j hj
          rcases List.mem_cons.1 hj with rfl | hj
          · simpa using hb
          · exact hi.sn j hj
        · intro j b hj
          obtain ⟨h1, h2⟩ := hi.lo j b hj
          exact ⟨List.mem_cons_of_mem _ h1, h2⟩
    | deref i =>
      rw [wf, Bool.or_eq_true, Bool.and_eq_true] at hw
      rcases hw with hw | hw
      · exact hlast _ _ _ _ hi hw.1 hw.2
      simp only [Bool.and_eq_true] at hw
      obtain ⟨h1, hw⟩ := hw
      split at h1
      · rename_i k hk
        have ht := getD_sig hk (by simp)
        have hnb := hi.sn i (List.contains_iff_mem.1 h1)
        rw [hk] at hnb
        have hm : s.heap (c.arg i) = some k := by
          rw [hi.heap]
          rcases hl.args i _ ht with h1 | h1
          · exact absurd h1 ((not_bad_iff _ _).1 hnb)
          · exact h1
        exact hskip _ _ _ (by simp only [exec, hk, hm, if_true]) rfl (ih hi hw)
      · rename_i a hk
        have hnb := hi.sn i (List.contains_iff_mem.1 h1)
        rw [hk] at hnb
        exact hskip _ _ _ (by simp only [exec, hk, show bad a (c.arg i) = false from hnb]; rfl) rfl (ih hi hw)
      · rename_i hk
        have ht := getD_sig hk (by simp)
        exact hskip _ _ _ (by simp only [exec, hk, hv i ht, if_false]) rfl (ih hi hw)
      · cases h1
    | compute j =>
      rw [wf, Bool.or_eq_true, Bool.and_eq_true] at hw
      rcases hw with hw | hw
      · exact hlast _ _ _ _ hi hw.1 hw.2
      cases hg : c.good j with
      | false => exact hpanic _ _ _ _ _ hi (by simp [exec, hg]) rfl (.compute hg)
      | true => exact hskip _ _ _ (by simp only [exec, hg, if_true]) rfl (ih hi hw)
    | nullSlot i =>
      rw [wf, Bool.or_eq_true, Bool.and_eq_true] at hw
      rcases hw with hw | hw
      · exact hlast _ _ _ _ hi hw.1 hw.2
      simp only [Bool.and_eq_true] at hw
      obtain ⟨h1, hw⟩ := hw
      split at h1
      · rename_i k hk
        have ht := getD_sig hk (by simp)
        have hnb := hi.sn i (List.contains_iff_mem.1 h1)
        rw [hk] at hnb
        have hnb' := (not_bad_iff _ _).1 hnb
        have hm : (m (c.arg i)).isSome = true := by
          rcases hl.args i _ ht with h1 | h1
          · exact absurd h1 hnb'
          · exact h1
        refine hstep _ _ _ { s with mem := Function.update s.mem (c.arg i) (some (0, 0)) }
          (by simp only [exec, hi.isSome, hm, if_true]) rfl
          (ih ⟨hi.heap, hi.held, ?_, hi.sn, hi.lo⟩ hw)
        intro p
        by_cases hp : p = c.arg i
        · subst hp
          exact Or.inr ⟨i, k, ht, rfl, hnb', hm, by simp⟩
        · simp only [Function.update_of_ne hp]; exact hi.mem p
      · cases h1
    | load i =>
      rw [wf, Bool.or_eq_true, Bool.and_eq_true] at hw
      rcases hw with hw | hw
      · exact hlast _ _ _ _ hi hw.1 hw.2
      simp only [Bool.and_eq_true] at hw
      obtain ⟨h1, hw⟩ := hw
      have hgen : ∀ t, c.fn.sig[i]? = some t → t.inSlot = true → (∀ k, t ≠ .result k) → i ∈ seen →
          (m (c.arg i)).isSome = true → Q (.load i :: r) s := by
        intro t ht hs hr hseen hm
        obtain ⟨q, hq⟩ := Option.isSome_iff_exists.1 hm
        have hsl := hi.slot hl ht (ArgTy.inSlot_isSlot hs) hr
        refine hstep _ _ _ { s with reg := q } (by simp only [exec, hsl, hq]) rfl
          (ih ⟨hi.heap, hi.held, hi.mem, hi.sn, ?_⟩ hw)
        intro j b hj
        simp only [Option.some.injEq, Prod.mk.injEq] at hj
        obtain ⟨rfl, rfl⟩ := hj
        exact ⟨hseen, ⟨t, ht, hs⟩, hq, fun hb => hu hb i t q ht hs hq⟩
      split at h1
      · rename_i k hk
        have ht := getD_sig hk (by simp)
        have hseen := List.contains_iff_mem.1 h1
        have hnb := hi.sn i hseen
        rw [hk] at hnb
        refine hgen _ ht rfl (by simp) hseen ?_
        rcases hl.args i _ ht with h1 | ⟨q, n, h1, -⟩
        · exact absurd h1 ((not_bad_iff _ _).1 hnb)
        · rw [h1]; rfl
      · rename_i hk
        have ht := getD_sig hk (by simp)
        have hseen := List.contains_iff_mem.1 h1
        have hnb := hi.sn i hseen
        rw [hk] at hnb
        refine hgen _ ht rfl (by simp) hseen ?_
        rcases hl.args i _ ht with h1 | ⟨q, n, h1, -⟩
        · exact absurd h1 ((not_bad_iff _ _).1 hnb)
        · rw [h1]; rfl
      · cases h1
    | checkLoaded i =>
      rcases ld with _ | ⟨j, b⟩
      · simp only [wf, Bool.or_false, Bool.and_eq_true] at hw
        exact hlast _ _ _ _ hi hw.1 hw.2
      rw [wf, Bool.or_eq_true, Bool.and_eq_true] at hw
      rcases hw with hw | hw
      · exact hlast _ _ _ _ hi hw.1 hw.2
      simp only [Bool.and_eq_true, beq_iff_eq] at hw
      obtain ⟨rfl, hw⟩ := hw
      obtain ⟨h1, ⟨t, h2, h2'⟩, h3, -⟩ := hi.lo i b rfl
      by_cases hb : bad ((c.fn.sig.getD i .int).loadedAlign P) s.reg.1 = true
      · exact hpanic _ _ _ _ _ hi (by simp only [exec, hb, if_true]) rfl (.loaded h2 h2' h3 hb)
      · refine hskip _ _ _ (by simp only [exec, hb]; rfl) rfl (ih ⟨hi.heap, hi.held, hi.mem, hi.sn, ?_⟩ hw)
        intro j b' hj
        simp only [Option.some.injEq, Prod.mk.injEq] at hj
        obtain ⟨rfl, rfl⟩ := hj
        exact ⟨h1, ⟨t, h2, h2'⟩, h3, fun _ => by simpa using hb⟩
    | take i =>
      simp only [wf, Bool.or_false, Bool.and_eq_true] at hw
      exact hlast _ _ _ _ hi hw.1 hw.2
    | free i =>
      simp only [wf, Bool.or_false, Bool.and_eq_true] at hw
      exact hlast _ _ _ _ hi hw.1 hw.2
    | give i =>
      simp only [wf, Bool.or_false, Bool.and_eq_true] at hw
      exact hlast _ _ _ _ hi hw.1 hw.2
    | giveBytes i =>
      simp only [wf, Bool.or_false, Bool.and_eq_true] at hw
      exact hlast _ _ _ _ hi hw.1 hw.2
    | freeBytes i =>
      simp only [wf, Bool.or_false, Bool.and_eq_true] at hw
      exact hlast _ _ _ _ hi hw.1 hw.2

/-- A body that passes the check, run from a state of the prefix. -/
theorem safe_wf {P c h m} (hl : Legal P h m c) (hu : Lucky c) (prog : List Stmt) {seen ld s}
    (hi : Inv P c h m seen ld s) (hw : wf false c.fn.sig seen ld prog = true) : Safe P c h m (run P c prog s) := by
  refine wf_ind hl hu.view (fun h => by cases h) (fun prog s => Safe P c h m (run P c prog s))
    (fun _ _ _ _ hi _ hla => safe_last hi hl hu hla) ?_ ?_ ?_ prog hi hw
  · intro t r s h1 _ h3
    rw [run_cons_ok h1]; exact h3
  · intro t r s s' h1 _ h3
    rw [run_cons_ok h1]; exact h3
  · intro t r s seen ld hi h1 _ _
    rw [run_cons_panic h1]
    exact ⟨hi.heap, hi.held, seen, ld, hi⟩

theorem inv_start (P : Platform) (c : Call) (h : Heap) (m : Mem) : Inv P c h m [] none ⟨h, m, (0, 0), none⟩ :=
  ⟨rfl, rfl, fun _ => Or.inl rfl, fun _ hi => absurd hi (by simp), fun _ _ hi => by cases hi⟩

/-- One call. -/
theorem call_safe {P c h m} (hf : c.fn ∈ Table.checked) (hl : Legal P h m c) (hu : Lucky c) (h0 : h 0 = none) :
    call P h m c = .abort ∨ ∃ code h' m', call P h m c = .ret code h' m' ∧ noteCall c code m m' h = h' ∧
      (code = 0 ∨ code = 1 ∧ h' = h ∧ ∀ p, m' p = m p ∨
        ∃ i k, c.fn.sig[i]? = some (.result k) ∧ c.arg i = p ∧ m' p = some (0, 0)) := by
  have hs := safe_wf hl hu c.fn.body (inv_start P c h m) (checked_wf _ hf)
  unfold call
  cases hr : run P c c.fn.body ⟨h, m, (0, 0), none⟩ with
  | ok s =>
    rw [hr] at hs
    exact Or.inr ⟨0, _, _, rfl, hs.symm, Or.inl rfl⟩
  | panic s =>
    rw [hr] at hs
    obtain ⟨h1, h2, seen, ld, hi⟩ := hs
    have hle : s.leave = h := by simp [St.leave, h2, h1]
    refine Or.inr ⟨1, _, _, rfl, ?_, Or.inr ⟨rfl, hle, ?_⟩⟩
    · rw [hle]; exact note_fail hi hl h0
    · intro p
      rcases hi.mem p with h3 | ⟨i, k, h3, h4, -, -, h5⟩
      · exact Or.inl h3
      · exact Or.inr ⟨i, k, h3, h4, h5⟩
  | ub => rw [hr] at hs; exact hs.elim
  | abort => exact Or.inl rfl


/-! ### Refused pointers -/

theorem inSlot_plain {t : ArgTy} (h : t.inSlot = true) : t.plain = false := by
  cases t <;> first | rfl | cases h

/-- At an end, nothing is to be refused. -/
theorem not_refused {P c h m seen ld s prog} (hi : Inv P c h m seen ld s) (ha : allSeen c.fn.sig seen = true)
    (hw : last c.fn.sig seen ld prog = true) : ¬ Refused P m c := by
  rintro (⟨ht, hp, hb⟩ | ⟨ht, hs, hm, hb⟩)
  · have := hi.sn _ (allSeen_mem ha ht hp)
    rw [sig_getD ht] at this
    exact (not_bad_iff _ _).1 this hb
  · rename_i i t q
    have he : (t, i) ∈ effects c.fn.sig := mem_effects.2 ⟨ht, inSlot_plain hs⟩
    have hld : ld = some (i, true) := by
      unfold last at hw
      split at hw
      · have he' : effects c.fn.sig = [] := by simpa using hw
        rw [he'] at he; cases he
      all_goals
        first
        | cases hw
        | (split at hw
           · rename_i he'
             rw [he'] at he
             simp only [List.mem_cons, List.not_mem_nil, or_false, Prod.mk.injEq] at he
             simp only [Bool.and_eq_true, beq_iff_eq] at hw
             first
             | (obtain ⟨rfl, -⟩ := he; simp [ArgTy.inSlot] at hs; done)
             | (obtain ⟨-, rfl⟩ := he
                obtain ⟨⟨⟨rfl, -⟩, -⟩, h2⟩ := hw
                exact h2)
             | (rcases he with ⟨-, rfl⟩ | ⟨rfl, -⟩
                · obtain ⟨⟨⟨⟨⟨rfl, -⟩, -⟩, -⟩, -⟩, h2⟩ := hw
                  exact h2
                · simp [ArgTy.inSlot] at hs)
           · cases hw)
    obtain ⟨-, -, h3, h4⟩ := hi.lo i true hld
    rw [hm] at h3
    injection h3 with h3
    have h4 := h4 rfl
    rw [sig_getD ht, ← h3] at h4
    exact (not_bad_iff _ _).1 h4 hb

theorem refuse {P c h m} (hf : c.fn ∈ Table.checked) (hl : Legal P h m c)
    (hv : ∀ i : Nat, c.fn.sig[i]? = some ArgTy.view → c.arg i ≠ 0) (hr : Refused P m c) :
    ∃ m', call P h m c = .ret 1 h m' ∧ ∀ p, m' p = m p ∨
      ∃ i k, c.fn.sig[i]? = some (.result k) ∧ c.arg i = p ∧ m' p = some (0, 0) := by
  have key := wf_ind (u := false) hl hv (fun h => by cases h)
    (fun prog s => ∃ s' seen ld, run P c prog s = .panic s' ∧ Inv P c h m seen ld s')
    (fun seen ld s prog hi ha hw => absurd hr (not_refused hi ha hw))
    (fun t r s h1 _ h3 => by rw [run_cons_ok h1]; exact h3)
    (fun t r s s' h1 _ h3 => by rw [run_cons_ok h1]; exact h3)
    (fun t r s seen ld hi h1 _ _ => ⟨s, seen, ld, run_cons_panic h1, hi⟩)
    c.fn.body (inv_start P c h m) (checked_wf _ hf)
  obtain ⟨s', seen, ld, hrun, hi⟩ := key
  refine ⟨s'.mem, ?_, ?_⟩
  · unfold call
    rw [hrun]
    simp [St.leave, hi.held, hi.heap]
  · intro p
    rcases hi.mem p with h3 | ⟨i, k, h3, h4, -, -, h5⟩
    · exact Or.inl h3
    · exact Or.inr ⟨i, k, h3, h4, h5⟩

/-! ### Success -/

theorem last_no_panic {P c seen ld s prog s'} (hw : last c.fn.sig seen ld prog = true) (hg : ∀ j, c.good j = true) :
    run P c prog s ≠ .panic s' := by
  unfold last at hw
  split at hw
  · simp [run]
  all_goals
    first
    | cases hw
    | (simp only [run, exec]
       repeat' split
       all_goals simp_all)

/-- If nothing is refused and the computations go well, the call does not fail. -/
theorem succeed {P c h m} (hf : c.fn ∈ Table.checked) (hl : Legal P h m c) (hu : Lucky c) (hr : ¬ Refused P m c)
    (hg : ∀ j, c.good j = true) :
    call P h m c = .abort ∨ ∃ h' m', call P h m c = .ret 0 h' m' := by
  have key := wf_ind (u := false) hl hu.view (fun h => by cases h)
    (fun prog s => ∀ s', run P c prog s ≠ .panic s')
    (fun seen ld s prog hi ha hw s' => last_no_panic hw hg)
    (fun t r s h1 _ h3 => by rw [run_cons_ok h1]; exact h3)
    (fun t r s s' h1 _ h3 => by rw [run_cons_ok h1]; exact h3)
    (fun t r s seen ld hi h1 _ hwhy => by
      exfalso
      cases hwhy with
      | @check i hp hb =>
        have ht : c.fn.sig[i]? = some (c.fn.sig.getD i .int) :=
          getD_sig rfl (fun e => by rw [e] at hp; cases hp)
        exact hr (.arg ht hp ((bad_iff _ _).1 hb))
      | compute hb => rw [hg] at hb; cases hb
      | loaded ht hs hm hb =>
        refine hr (.loaded ht hs hm ?_)
        rw [sig_getD ht] at hb
        exact (bad_iff _ _).1 hb)
    c.fn.body (inv_start P c h m) (checked_wf _ hf)
  have hs := safe_wf hl hu c.fn.body (inv_start P c h m) (checked_wf _ hf)
  unfold call
  cases hrun : run P c c.fn.body ⟨h, m, (0, 0), none⟩ with
  | ok s => exact Or.inr ⟨_, _, rfl⟩
  | panic s => exact absurd hrun (key s)
  | ub => rw [hrun] at hs; exact hs.elim
  | abort => exact Or.inl rfl

end Verif.Ffi
