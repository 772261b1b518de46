import Verif.Engine.Vec
import Verif.Lwe.Lemmas2
/-
Lemmas on the loops over ciphertext vectors.
-/
set_option linter.unusedSectionVars false
namespace Verif.Engine
open Verif.Random Verif.Lwe

/-- A vector of `m` ciphertexts of dimension `n`. -/
def LweVec.Shape {R : Type} (v : LweVec R) (n m : Nat) : Prop :=
  v.lweSize = n + 1 ∧ v.data.length = m * (n + 1)

/-- The `i`-th ciphertext of a vector: its words `i·lweSize, …, (i+1)·lweSize - 1`. -/
def LweVec.get {R : Type} (v : LweVec R) (i : Nat) : List R :=
  (v.data.drop (i * v.lweSize)).take v.lweSize

section
variable {R : Type}

theorem LweVec.Shape.dim {v : LweVec R} {n m : Nat} (h : v.Shape n m) : v.dim = n := by
  simp [LweVec.dim, h.1]

theorem LweVec.Shape.count {v : LweVec R} {n m : Nat} (h : v.Shape n m) : v.count = m := by
  rw [LweVec.count, h.1, h.2]
  exact Nat.mul_div_cancel _ (by omega)

theorem LweVec.Shape.cts {v : LweVec R} {n m : Nat} (h : v.Shape n m) :
    v.cts = (List.range m).map v.get := by
  rw [LweVec.cts, h.1, chunks_eq (n + 1) (by omega) m v.data h.2]
  apply List.map_congr_left
  intro i _
  rw [LweVec.get, h.1]
  rfl

theorem LweVec.Shape.get_length {v : LweVec R} {n m : Nat} (h : v.Shape n m) {i : Nat} (hi : i < m) :
    (v.get i).length = n + 1 := by
  have := block_length (n + 1) v.data i (by rw [h.2]; exact Nat.mul_le_mul_right _ hi)
  rw [LweVec.get, h.1]
  exact this

/-- Writing back `m` blocks of the right size. -/
theorem store_spec {ε : Type} {v : LweVec R} {n m : Nat} (h : v.Shape n m) (F : Nat → List R)
    (hF : ∀ i, i < m → (F i).length = n + 1) :
    ∃ r, v.store (ε := ε) (some ((List.range m).map F)) = .ok r ∧ r.Shape n m ∧
      ∀ i, i < m → r.get i = F i := by
  have hu : ∀ x ∈ (List.range m).map F, x.length = n + 1 := by
    intro x hx
    obtain ⟨i, hi, rfl⟩ := List.mem_map.1 hx
    exact hF i (List.mem_range.1 hi)
  refine ⟨_, rfl, ⟨h.1, ?_⟩, ?_⟩
  · show (((List.range m).map F).flatten).length = _
    rw [flatten_length_uniform _ _ hu]
    simp
  · intro i hi
    rw [LweVec.get]
    show ((((List.range m).map F).flatten).drop (i * v.lweSize)).take v.lweSize = F i
    rw [h.1]
    exact block_flatten (n + 1) (by omega) _ hu i (F i) (by simp [hi])

theorem forZip_map {α β : Type} (f : α → β → Option α) (r : α → β → α) :
    ∀ (m : Nat) (A : Nat → α) (B : Nat → β), (∀ i, i < m → f (A i) (B i) = some (r (A i) (B i))) →
      forZip f ((List.range m).map A) ((List.range m).map B) =
        some ((List.range m).map fun i => r (A i) (B i)) := by
  intro m
  induction m with
  | zero => intro A B _; rfl
  | succ m ih =>
    intro A B h
    rw [List.range_succ_eq_map]
    simp only [List.map_cons, List.map_map, forZip]
    rw [h 0 (by omega)]
    have := ih (A ∘ Nat.succ) (B ∘ Nat.succ) (fun i hi => h (i + 1) (by omega))
    simp only [this]
    rfl

theorem zip_map_range {α β : Type} (m : Nat) (A : Nat → α) (B : Nat → β) :
    ((List.range m).map A).zip ((List.range m).map B) = (List.range m).map fun i => (A i, B i) := by
  rw [List.zip_map']

end

section
variable {R : Type} [CommRing R]

theorem mulLoop_map : ∀ (m k : Nat) (_ : m ≤ k) (A B : Nat → List R) (C : Nat → R),
    mulCleartextLoop ((List.range m).map A) ((List.range k).map B) ((List.range k).map C) =
      some ((List.range m).map fun i => fillWithScalarMul (A i) (B i) (C i)) := by
  intro m
  induction m with
  | zero => intro k _ A B C; simp [mulCleartextLoop]
  | succ m ih =>
    intro k hk A B C
    obtain ⟨k, rfl⟩ : ∃ k', k = k' + 1 := ⟨k - 1, by omega⟩
    rw [List.range_succ_eq_map, List.range_succ_eq_map]
    simp only [List.map_cons, List.map_map, mulCleartextLoop]
    have := ih k (by omega) (A ∘ Nat.succ) (B ∘ Nat.succ) (C ∘ Nat.succ)
    simp only [this]
    rfl

theorem map_getD_range (l : List R) : l = (List.range l.length).map fun i => l.getD i 0 := by
  apply List.ext_getElem?
  intro i
  by_cases h : i < l.length
  · simp [h, List.getD_eq_getElem?_getD]
  · simp [h]

end
end Verif.Engine
