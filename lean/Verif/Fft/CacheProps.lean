import Verif.Fft.CacheInv
import Mathlib.Algebra.BigOperators.Group.List.Basic
import Mathlib.Tactic.Ring
/-
C65: the cache of Fourier plans. Any number of threads may create a Fourier transform at the same time, for any sizes,
in any interleaving, and building a plan may fail.
-/
namespace Verif.Fft.Cache

variable {P : Type}

theorem inv_run {s s' : State P} (h : Inv s) : ∀ (es : List (Nat × Option P)), run s es = some s' → Inv s' := by
  intro es
  induction es generalizing s with
  | nil => intro hr; simp only [run, Option.some.injEq] at hr; rw [← hr]; exact h
  | cons e es ih =>
    intro hr
    simp only [run, Option.bind_eq_some_iff] at hr
    obtain ⟨s1, h1, h2⟩ := hr
    exact ih (inv_step h h1) h2

/-- The number of steps a thread has left. -/
def Pc.left : Pc P → Nat
  | .start => 8
  | .inserting => 7
  | .unlockW => 6
  | .lookup => 5
  | .cloning => 4
  | .unlockR _ => 3
  | .getting _ => 2
  | .init _ => 1
  | _ => 0

def State.left (s : State P) : Nat := (s.threads.map fun x => x.2.left).sum

theorem sum_set (l : List Nat) (t a b : Nat) (h : l[t]? = some a) (hb : b < a) : (l.set t b).sum < l.sum := by
  induction l generalizing t with
  | nil => simp at h
  | cons x l ih =>
    cases t with
    | zero => simp at h; subst h; simpa using hb
    | succ t => simp at h; simpa using ih t h

theorem step_goto {s s' : State P} {t : Nat} {o : Option P} (hs : step s t o = some s') :
    ∃ n pc pc', s.threads[t]? = some (n, pc) ∧ s'.threads = s.threads.set t (n, pc') ∧ pc'.left < pc.left := by
  unfold step at hs
  cases ht : s.threads[t]? with
  | none => rw [ht] at hs; exact absurd hs (by simp)
  | some x =>
    obtain ⟨n, pc⟩ := x
    rw [ht] at hs
    refine ⟨n, pc, ?_⟩
    cases pc <;> dsimp only at hs
    case done => exact absurd hs (by simp)
    case unwrapPanic => exact absurd hs (by simp)
    case initPanic => exact absurd hs (by simp)
    all_goals try split at hs
    all_goals first
      | (cases hs; done)
      | (cases hs; exact ⟨_, rfl, rfl, by simp [Pc.left]⟩)

theorem step_left {s s' : State P} {t : Nat} {o : Option P} (hs : step s t o = some s') : s'.left < s.left := by
  obtain ⟨n, pc, pc', h1, h2, h3⟩ := step_goto hs
  unfold State.left
  rw [h2, List.map_set]
  refine sum_set _ _ pc.left _ ?_ h3
  rw [List.getElem?_map, h1]
  rfl

theorem run_left {s s' : State P} (es : List (Nat × Option P)) (h : run s es = some s') :
    es.length + s'.left ≤ s.left := by
  induction es generalizing s with
  | nil => simp only [run, Option.some.injEq] at h; rw [h]; simp
  | cons e es ih =>
    simp only [run, Option.bind_eq_some_iff] at h
    obtain ⟨s1, h1, h2⟩ := h
    have := ih h2
    have := step_left h1
    simp only [List.length_cons]
    omega

/-- The sizes the threads ask for never change. -/
theorem run_sizes {s s' : State P} (es : List (Nat × Option P)) (h : run s es = some s') :
    s'.threads.map Prod.fst = s.threads.map Prod.fst := by
  induction es generalizing s with
  | nil => simp only [run, Option.some.injEq] at h; rw [h]
  | cons e es ih =>
    simp only [run, Option.bind_eq_some_iff] at h
    obtain ⟨s1, h1, h2⟩ := h
    rw [ih h2]
    obtain ⟨n, pc, pc', h1, h2, h3⟩ := step_goto h1
    rw [h2, List.map_set]
    refine List.ext_getElem? fun i => ?_
    rw [List.getElem?_set]
    split
    · subst_vars; split <;> simp_all
    · rfl

/-- C65. Two calls that ask for the same size return the same plan, whatever the interleaving, even if building a plan
gives a different result each time it is tried; and that plan is the result of the single successful initialisation of
that size. -/
theorem C65_same_plan {sizes : List Nat} {es : List (Nat × Option P)} {s : State P}
    (hr : run (initial P sizes) es = some s) {t t' n : Nat} {p q : P}
    (h : s.threads[t]? = some (n, .done p)) (h' : s.threads[t']? = some (n, .done q)) :
    p = q ∧ s.log.filter (fun e => e.1 == n && e.2.isSome) = [(n, some p)] := by
  have hi := inv_run (inv_initial sizes) es hr
  obtain ⟨id, h1, h2⟩ := hi.th t n _ h
  obtain ⟨id', h3, h4⟩ := hi.th t' n _ h'
  have hm := (hi.logged n p).2 ⟨id, h1, h2⟩
  refine ⟨by grind, ?_⟩
  have ho := hi.once n
  unfold successes at ho
  have hm' : (n, some p) ∈ s.log.filter (fun e => e.1 == n && e.2.isSome) := by
    rw [List.mem_filter]; exact ⟨hm, by simp⟩
  generalize s.log.filter (fun e => e.1 == n && e.2.isSome) = l at ho hm'
  match l, ho, hm' with
  | [x], _, hm' => simp at hm'; rw [hm']

/-- C65. A plan of a size is built successfully at most once in the life of the process, and the lookup after the
insertion never fails. -/
theorem C65_once {sizes : List Nat} {es : List (Nat × Option P)} {s : State P}
    (hr : run (initial P sizes) es = some s) :
    (∀ n, (s.log.filter fun e => e.1 == n && e.2.isSome).length ≤ 1) ∧
      ∀ t n : Nat, s.threads[t]? ≠ some (n, .unwrapPanic) := by
  have hi := inv_run (inv_initial sizes) es hr
  exact ⟨hi.once, fun t n h => hi.th t n _ h⟩

/-- C65. No deadlock: as long as some call has not ended, some thread can make a step, whatever the outcome of the
initialiser it may be running. -/
theorem C65_progress {sizes : List Nat} {es : List (Nat × Option P)} {s : State P}
    (hr : run (initial P sizes) es = some s) {t n : Nat} {pc : Pc P} (ht : s.threads[t]? = some (n, pc))
    (he : ¬ pc.Ended) : ∃ t' : Nat, ∀ o, (step s t' o).isSome := by
  have hi := inv_run (inv_initial sizes) es hr
  cases hw : s.writer with
  | some w =>
    obtain ⟨m, h | h⟩ := (hi.wr w).1 hw
    · refine ⟨w, fun o => ?_⟩
      simp only [step, h]
      split <;> rfl
    · exact ⟨w, fun o => by simp only [step, h]; rfl⟩
  | none =>
    cases hrd : s.readers with
    | cons r rs =>
      obtain ⟨m, h | ⟨c, h⟩⟩ := (hi.rd r).1 (by rw [hrd]; simp)
      · exact ⟨r, fun o => by simp only [step, h]; rfl⟩
      · refine ⟨r, fun o => ?_⟩
        simp only [step, h]
        split <;> rfl
    | nil =>
      have hpc := hi.th t n pc ht
      cases pc with
      | start => exact ⟨t, fun o => by simp only [step, ht, hw, hrd]; simp⟩
      | inserting => exact absurd ((hi.wr t).2 ⟨n, Or.inl ht⟩) (by simp [hw])
      | unlockW => exact absurd ((hi.wr t).2 ⟨n, Or.inr ht⟩) (by simp [hw])
      | lookup => exact ⟨t, fun o => by simp only [step, ht, hw]; simp⟩
      | cloning => exact absurd ((hi.rd t).2 ⟨n, Or.inl ht⟩) (by simp [hrd])
      | unlockR c => exact absurd ((hi.rd t).2 ⟨n, Or.inr ⟨c, ht⟩⟩) (by simp [hrd])
      | getting id =>
        have hl := hi.key n id hpc
        cases hc : s.cells[id]? with
        | none => exact absurd (List.getElem?_eq_none_iff.1 hc) (by omega)
        | some c =>
          cases c with
          | empty => exact ⟨t, fun o => by simp only [step, ht, hc]; rfl⟩
          | full p => exact ⟨t, fun o => by simp only [step, ht, hc]; rfl⟩
          | busy =>
            obtain ⟨t', m, h⟩ := hi.busy id hc
            refine ⟨t', fun o => ?_⟩
            simp only [step, h]
            cases o <;> rfl
      | init id =>
        refine ⟨t, fun o => ?_⟩
        simp only [step, ht]
        cases o <;> rfl
      | done p => exact absurd trivial he
      | unwrapPanic => exact absurd trivial he
      | initPanic => exact absurd trivial he

/-- C65. Every execution has at most eight steps per call, so no schedule makes a call run for ever. -/
theorem C65_bounded {sizes : List Nat} {es : List (Nat × Option P)} {s : State P}
    (hr : run (initial P sizes) es = some s) : es.length ≤ 8 * sizes.length := by
  have := run_left es hr
  have h0 : (initial P sizes).left = 8 * sizes.length := by
    simp only [State.left, initial, List.map_map]
    induction sizes with
    | nil => rfl
    | cons n l ih =>
      rw [List.map_cons, List.sum_cons, List.length_cons]
      have : (List.map ((fun x => x.2.left) ∘ fun n => (n, (Pc.start : Pc P))) l).sum = 8 * l.length := by
        clear * -
        induction l with
        | nil => rfl
        | cons n l ih => rw [List.map_cons, List.sum_cons, List.length_cons, ih]; simp [Pc.left]; ring
      rw [this]; simp [Pc.left]; ring
  omega

/-- C65. When no thread can go on, every call has ended: with the plan of its size, or with the panic of an initialiser
of its size that failed. Hence if no initialiser fails every call returns a plan. -/
theorem C65_complete {sizes : List Nat} {es : List (Nat × Option P)} {s : State P}
    (hr : run (initial P sizes) es = some s) (hend : ∀ t : Nat, ∃ o, step s t o = none) :
    s.threads.length = sizes.length ∧
      ∀ (t n : Nat), sizes[t]? = some n →
        (∃ p, s.threads[t]? = some (n, .done p) ∧ (n, some p) ∈ s.log) ∨
          (s.threads[t]? = some (n, .initPanic) ∧ (n, none) ∈ s.log) := by
  have hi := inv_run (inv_initial sizes) es hr
  have hs := run_sizes es hr
  have h0 : (initial P sizes).threads.map Prod.fst = sizes := by
    simp only [initial, List.map_map]
    exact List.map_id' _
  rw [h0] at hs
  refine ⟨by rw [← hs, List.length_map], fun t n htn => ?_⟩
  rw [← hs, List.getElem?_map, Option.map_eq_some_iff] at htn
  obtain ⟨⟨m, pc⟩, ht, rfl⟩ := htn
  by_cases he : pc.Ended
  · have := hi.th t m pc ht
    cases pc with
    | done p => exact Or.inl ⟨p, ht, (hi.logged m p).2 this⟩
    | initPanic => exact Or.inr ⟨ht, this⟩
    | unwrapPanic => exact this.elim
    | _ => exact he.elim
  · obtain ⟨t', h1⟩ := C65_progress hr ht he
    obtain ⟨o, h2⟩ := hend t'
    have := h1 o
    rw [h2] at this
    exact absurd this (by simp)

def panicked (x : Nat × Pc P) : Bool := match x.2 with
  | .initPanic => true
  | _ => false

theorem step_failures {s s' : State P} {t : Nat} {o : Option P} (hs : step s t o = some s') :
    s'.threads.countP panicked + s.log.countP (fun e => e.2.isNone) =
      s.threads.countP panicked + s'.log.countP (fun e => e.2.isNone) := by
  unfold step at hs
  cases ht : s.threads[t]? with
  | none => rw [ht] at hs; exact absurd hs (by simp)
  | some x =>
    obtain ⟨n, pc⟩ := x
    rw [ht] at hs
    obtain ⟨hl, hx⟩ := List.getElem?_eq_some_iff.1 ht
    have hc : ∀ y, (s.threads.set t y).countP panicked =
        s.threads.countP panicked - (if panicked (n, pc) then 1 else 0) + if panicked y then 1 else 0 := by
      intro y
      rw [List.countP_set hl, hx]
    cases pc <;> dsimp only at hs
    case done => exact absurd hs (by simp)
    case unwrapPanic => exact absurd hs (by simp)
    case initPanic => exact absurd hs (by simp)
    all_goals try split at hs
    all_goals first
      | (cases hs; done)
      | (cases hs; simp only [State.goto, hc, panicked, List.countP_cons]; simp; try omega)

/-- C65. A failure is not shared: exactly as many calls panic as initialisers failed, so a call that waited for
a failing initialiser tries again instead of failing with it. -/
theorem C65_failures {sizes : List Nat} {es : List (Nat × Option P)} {s : State P}
    (hr : run (initial P sizes) es = some s) :
    (s.threads.filter fun x => match x.2 with | .initPanic => true | _ => false).length =
      (s.log.filter fun e => e.2.isNone).length := by
  have key : ∀ (es : List (Nat × Option P)) (s s' : State P), run s es = some s' →
      s'.threads.countP panicked + s.log.countP (fun e => e.2.isNone) =
        s.threads.countP panicked + s'.log.countP (fun e => e.2.isNone) := by
    intro es
    induction es with
    | nil => intro s s' h; simp only [run, Option.some.injEq] at h; rw [h]
    | cons e es ih =>
      intro s s' h
      simp only [run, Option.bind_eq_some_iff] at h
      obtain ⟨s1, h1, h2⟩ := h
      have := step_failures h1
      have := ih s1 s' h2
      omega
  have := key es _ _ hr
  have h0 : (initial P sizes).threads.countP panicked = 0 := by
    rw [List.countP_eq_zero]
    intro x hx
    simp only [initial, List.mem_map] at hx
    obtain ⟨n, _, rfl⟩ := hx
    simp [panicked]
  rw [h0] at this
  simp only [initial, List.countP_nil, Nat.zero_add, Nat.add_zero] at this
  rw [← List.countP_eq_length_filter, ← List.countP_eq_length_filter, ← this]
  rfl

/-- Three calls, two of them for the same size: the first initialiser of size 8 fails while the other call waits for it,
and then that call succeeds. -/
def exampleRun : List (Nat × Option Nat) :=
  List.replicate 7 (0, none) ++ List.replicate 6 (1, none) ++ [(0, none), (1, none), (1, some 5)] ++
    List.replicate 7 (2, none) ++ [(2, some 7)]

example : ∃ s, run (initial Nat [8, 8, 16]) exampleRun = some s ∧
    s.threads = [(8, .initPanic), (8, .done 5), (16, .done 7)] ∧ ∀ t : Nat, ∃ o, step s t o = none := by
  refine ⟨_, rfl, rfl, fun t => ⟨none, ?_⟩⟩
  match t with
  | 0 => rfl
  | 1 => rfl
  | 2 => rfl
  | t + 3 => rfl

/-- While the cell is being initialised the second call is blocked. -/
example : ∃ s, run (initial Nat [8, 8]) (List.replicate 7 (0, none) ++ List.replicate 6 (1, none)) = some s ∧
    (∀ o, step s 1 o = none) ∧ ∀ o, (step s 0 o).isSome :=
  ⟨_, rfl, fun _ => rfl, fun o => by cases o <;> rfl⟩

end Verif.Fft.Cache
