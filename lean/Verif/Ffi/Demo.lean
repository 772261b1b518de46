import Verif.Ffi.Lemmas2
import Mathlib.Tactic.SplitIfs
/-
The histories, and a concrete one: a machine on which a caller gets a seeder builder, an engine and a key.
-/
namespace Verif.Ffi

theorem reach_exact {P h own} (hr : Reach P Table.checked Lucky h own) : own = h ∧ Placed P h := by
  induction hr with
  | start => exact ⟨rfl, fun q k hq => by cases hq⟩
  | step _ hf hu hl hc ih =>
    obtain ⟨rfl, hp⟩ := ih
    refine ⟨?_, call_placed hp hc⟩
    rcases call_safe hf hl hu hp.zero with ha | ⟨code, h', m', h1, h2, -⟩
    · rw [ha] at hc; cases hc
    · rw [h1] at hc
      injection hc with e1 e2 e3
      subst e1; subst e2; subst e3
      exact h2

/-- A machine: everything is aligned on 8 bytes, the allocator takes the first free block out of 64. -/
def demo : Platform where
  align _ := 8
  alloc h _ := ((List.range 64).map fun i => 8 * (i + 1)).find? fun q => (h q).isNone
  alloc_ne_zero h k q hq := by
    have := List.mem_of_find?_eq_some hq
    simp only [List.mem_map] at this
    obtain ⟨i, -, rfl⟩ := this
    omega
  alloc_aligned h k q hq := by
    have := List.mem_of_find?_eq_some hq
    simp only [List.mem_map] at this
    obtain ⟨i, -, rfl⟩ := this
    omega
  alloc_fresh h k q hq := by
    have := List.find?_some hq
    simpa using this

/-- Variables of the caller at the addresses 1000, 1008, 1016 and 1024, holding the given pointers. -/
def vars (a b c d : Nat × Nat) : Mem := fun p =>
  if p = 1000 then some a else if p = 1008 then some b else if p = 1016 then some c else if p = 1024 then some d
  else none

/-- A heap with the given objects at the addresses 8, 16 and 24. -/
def three (a b c : Option Kind) : Heap := fun p => if p = 8 then a else if p = 16 then b else if p = 24 then c else none

theorem three_update (a b c : Option Kind) :
    (∀ x, Function.update (three a b c) 8 x = three x b c) ∧ (∀ x, Function.update (three a b c) 16 x = three a x c) ∧
      ∀ x, Function.update (three a b c) 24 x = three a b x := by
  refine ⟨fun x => ?_, fun x => ?_, fun x => ?_⟩ <;>
  · funext p
    simp only [three, Function.update_apply]
    split_ifs <;> simp_all

theorem vars_update (a b c d : Nat × Nat) :
    (∀ x, Function.update (vars a b c d) 1000 (some x) = vars x b c d) ∧
    (∀ x, Function.update (vars a b c d) 1008 (some x) = vars a x c d) ∧
    (∀ x, Function.update (vars a b c d) 1016 (some x) = vars a b x d) ∧
    ∀ x, Function.update (vars a b c d) 1024 (some x) = vars a b c x := by
  refine ⟨fun x => ?_, fun x => ?_, fun x => ?_, fun x => ?_⟩ <;>
  · funext p
    simp only [vars, Function.update_apply]
    split_ifs <;> simp_all

theorem three_none : (fun _ => none : Heap) = three none none none := by
  funext p; simp [three]

/-- A decidable form of `ArgOk`, for the concrete cases. -/
theorem legal_of {P own m c} (h1 : ∀ i < c.fn.sig.length, ArgOk P own m (c.fn.sig.getD i .int) (c.arg i))
    (h2 : ((List.range c.fn.sig.length).all fun i => (List.range c.fn.sig.length).all fun j =>
      i == j || !(c.fn.sig.getD i .int).isSlot || !(c.fn.sig.getD j .int).isSlot || c.arg i != c.arg j) = true) :
    Legal P own m c := by
  refine ⟨fun i t ht => ?_, fun i j t u hij hi hj hs hs' e => ?_⟩
  · have hlt := (List.getElem?_eq_some_iff.1 ht).1
    have := h1 i hlt
    rwa [sig_getD ht] at this
  · have hlt := (List.getElem?_eq_some_iff.1 hi).1
    have hlt' := (List.getElem?_eq_some_iff.1 hj).1
    have h3 := List.all_eq_true.1 (List.all_eq_true.1 h2 i (List.mem_range.2 hlt)) j (List.mem_range.2 hlt')
    rw [sig_getD hi, sig_getD hj, hs, hs'] at h3
    simp [hij, e] at h3


/-- The three first calls: a seeder builder, an engine, a key. -/
theorem alloc_three : demo.alloc (three none none none) .seederBuilder = some 8 ∧
    demo.alloc (three (some .seederBuilder) none none) .defaultEngine = some 16 ∧
    demo.alloc (three (some .seederBuilder) (some .defaultEngine) none) .lweSecretKey = some 24 := by
  refine ⟨?_, ?_, ?_⟩ <;> rfl

/-- The heap with a seeder builder, an engine and a key. -/
abbrev demoHeap : Heap := three (some .seederBuilder) (some .defaultEngine) (some .lweSecretKey)

/-- A call in which everything goes well. -/
def fine (f : Fn) (args : List Nat) : Call := ⟨f, args, fun _ => true, 0, 0⟩

theorem fine_lucky (f : Fn) (args : List Nat) (hv : ∀ i : Nat, f.sig[i]? ≠ some ArgTy.view) : Lucky (fine f args) :=
  ⟨rfl, fun i hi => absurd hi (hv i), fun _ _ _ _ => rfl⟩

theorem no_view {sig : List ArgTy} (h : sig.all (fun t => decide (t ≠ .view)) = true) (i : Nat) :
    sig[i]? ≠ some ArgTy.view := by
  intro e
  have := List.all_eq_true.1 h _ (List.mem_of_getElem? e)
  simp at this

theorem demo_reach : Reach demo Table.checked Lucky demoHeap demoHeap := by
  obtain ⟨a1, a2, a3⟩ := alloc_three
  have hal : ∀ k, demo.align k = 8 := fun _ => rfl
  have r0 : Reach demo Table.checked Lucky (three none none none) (three none none none) := by
    rw [← three_none]; exact Reach.start
  have r1 : Reach demo Table.checked Lucky (three (some .seederBuilder) none none)
      (three (some .seederBuilder) none none) := by
    have r := Reach.step (m := vars (0, 0) (0, 0) (0, 0) (0, 0))
      (c := fine Table.get_unix_seeder_builder [0, 0, 1000])
      (code := 0) (h' := three (some .seederBuilder) none none) (m' := vars (8, 0) (0, 0) (0, 0) (0, 0)) r0
      (by decide +kernel) (fine_lucky _ _ (no_view (by decide))) ?_ ?_
    · rwa [(reach_exact r).1] at r
    · refine legal_of ?_ (by decide +kernel)
      intro i hi
      have hi : i < 3 := hi
      rcases i with _ | _ | _ | i
      · trivial
      · trivial
      · exact Or.inr rfl
      · omega
    · simp [call, run, exec, fine, Table.get_unix_seeder_builder, Call.arg, ArgTy.align, bad, a1,
        three_update, vars_update, St.leave, show vars (0, 0) (0, 0) (0, 0) (0, 0) 1000 = some (0, 0) from rfl]
  have r2 : Reach demo Table.checked Lucky (three (some .seederBuilder) (some .defaultEngine) none)
      (three (some .seederBuilder) (some .defaultEngine) none) := by
    have r := Reach.step (m := vars (8, 0) (0, 0) (0, 0) (0, 0))
      (c := fine Table.new_default_engine [8, 1008])
      (code := 0) (h' := three (some .seederBuilder) (some .defaultEngine) none)
      (m' := vars (8, 0) (16, 0) (0, 0) (0, 0)) r1
      (by decide +kernel) (fine_lucky _ _ (no_view (by decide))) ?_ ?_
    · rwa [(reach_exact r).1] at r
    · refine legal_of ?_ (by decide +kernel)
      intro i hi
      have hi : i < 2 := hi
      rcases i with _ | _ | i
      · exact Or.inr rfl
      · exact Or.inr rfl
      · omega
    · simp [call, run, exec, fine, Table.new_default_engine, Call.arg, ArgTy.align, bad, hal, a2,
        three_update, vars_update, St.leave, show vars (8, 0) (0, 0) (0, 0) (0, 0) 1008 = some (0, 0) from rfl,
        show three (some .seederBuilder) none none 8 = some .seederBuilder from rfl]
  have r := Reach.step (m := vars (8, 0) (16, 0) (0, 0) (0, 0))
    (c := fine Table.default_engine_generate_new_lwe_secret_key_u64 [16, 3, 1016])
    (code := 0) (h' := demoHeap) (m' := vars (8, 0) (16, 0) (24, 0) (0, 0)) r2
    (by decide +kernel) (fine_lucky _ _ (no_view (by decide))) ?_ ?_
  · rwa [(reach_exact r).1] at r
  · refine legal_of ?_ (by decide +kernel)
    intro i hi
    have hi : i < 3 := hi
    rcases i with _ | _ | _ | i
    · exact Or.inr rfl
    · trivial
    · exact Or.inr rfl
    · omega
  · simp [call, run, exec, fine, Table.default_engine_generate_new_lwe_secret_key_u64, Call.arg, ArgTy.align, bad, hal,
      a3, three_update, vars_update, St.leave,
      show vars (8, 0) (16, 0) (0, 0) (0, 0) 1016 = some (0, 0) from rfl,
      show three (some .seederBuilder) (some .defaultEngine) none 16 = some .defaultEngine from rfl]

end Verif.Ffi
