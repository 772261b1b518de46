import Verif.Decomp.Lemmas2
/-
Properties C08 - C11: signed decomposition.
-/
namespace Verif.Decomp
open Verif.BV

variable {w : Nat}

/-- C08. Rounding to a representable value: the result is representable, the signed error lies in
`[-2^(n-1), 2^(n-1))` with `n = w - b*l`, no representable value is strictly nearer, and a
representable value is left unchanged. -/
theorem C08_closest_representable (b l : Nat) (h : ValidParams w b l) (x : BitVec w) :
    Representable b l (closestRepresentable b l x) ∧
    (-(2 ^ (w - b * l - 1) : Int) ≤ signedDiff x (closestRepresentable b l x) ∧
      signedDiff x (closestRepresentable b l x) < 2 ^ (w - b * l - 1)) ∧
    (∀ y : BitVec w, Representable b l y →
      (signedDiff x (closestRepresentable b l x)).natAbs ≤ (signedDiff x y).natAbs) ∧
    (Representable b l x → closestRepresentable b l x = x) := by
  obtain ⟨h1, h2, h3⟩ := closest_signed b l h x
  have e2 : (2 ^ (w - b * l) : Int) = 2 * 2 ^ (w - b * l - 1) := by
    rw [← pow_succ']; congr 1; have := h.fits; omega
  have key : ∀ y : BitVec w, Representable b l y →
      (signedDiff x (closestRepresentable b l x)).natAbs ≤ (signedDiff x y).natAbs := by
    intro y hy
    obtain ⟨k, hk⟩ := representable_diff b l h x _ y h1 hy
    rw [hk, e2]
    generalize (2 ^ (w - b * l - 1) : Int) = H at *
    generalize signedDiff x (closestRepresentable b l x) = e at *
    rcases lt_trichotomy k 0 with hk0 | hk0 | hk0
    · have : 2 * H * k ≤ -(2 * H) := by nlinarith
      omega
    · subst hk0; simp
    · have : 2 * H * k ≥ 2 * H := by nlinarith
      omega
  refine ⟨h1, ⟨h2, h3⟩, key, ?_⟩
  intro hx
  have h0 := key x hx
  have hz : signedDiff x x = 0 := by simp [signedDiff]
  rw [hz] at h0
  have h4 : signedDiff x (closestRepresentable b l x) = 0 := by
    have : (0 : Int).natAbs = 0 := rfl
    omega
  have h5 : x - closestRepresentable b l x = 0 := by
    rw [← intCast_toInt (x - closestRepresentable b l x)]
    rw [signedDiff] at h4
    rw [h4]; simp
  exact (sub_eq_zero.1 h5).symm

/-- The hypothesis of C08 is met, and the result is not trivial: with `w = 8`, two levels of two
bits, `0x37` rounds to `0x30` and `0x38` rounds up to `0x40`; `0xF8` wraps to zero. -/
example : ValidParams 8 2 2 ∧ closestRepresentable 2 2 (0x37#8) = 0x30#8 ∧
    closestRepresentable 2 2 (0x38#8) = 0x40#8 ∧ closestRepresentable 2 2 (0xF8#8) = 0#8 :=
  ⟨⟨by omega, by omega, by omega⟩, by decide, by decide, by decide⟩

/-- C09. Decomposing yields exactly one term per level, from the last level down to the first;
every digit lies in `[-2^(b-1), 2^(b-1)]`, and the digits weighted by `2^(w - b*level)` sum to the
representable value nearest to the input, modulo `2^w`. -/
theorem C09_decompose (b l : Nat) (h : ValidParams w b l) (x : BitVec w) :
    ((decompose b l x).terms.map Term.level = (List.range l).map (fun j => l - j)) ∧
    (∀ t ∈ (decompose b l x).terms, t.baseLog = b ∧
      -(2 ^ (b - 1) : Int) ≤ t.value.toInt ∧ t.value.toInt ≤ 2 ^ (b - 1)) ∧
    weighted w b ((decompose b l x).terms.map fun t => (t.level, t.value.toInt)) =
      closestRepresentable b l x := by
  obtain ⟨hrep, _⟩ := closest_signed b l h x
  obtain ⟨ds, hlen, hv, hbd, _⟩ :=
    digits_spec b l h (closestRepresentable b l x >>> (w - b * l))
  have hb := h.base
  have hbw : b < w := by
    have h1 := h.fits
    have h2 := Nat.le_mul_of_pos_right b h.level
    omega
  refine ⟨?_, ?_, ?_⟩
  · rw [decompose_terms, List.map_map]; rfl
  · intro t ht
    rw [decompose_terms, List.mem_map] at ht
    obtain ⟨j, hj, rfl⟩ := ht
    have hj' := List.mem_range.1 hj
    have hmem : ds.getD j 0 ∈ ds := by
      rw [List.getD_eq_getElem?_getD, List.getElem?_eq_getElem (by omega)]
      simp
    obtain ⟨hlo, hhi⟩ := hbd _ hmem
    have hlt : (2 ^ (b - 1) : Int) < 2 ^ (w - 1) := by
      exact_mod_cast Nat.pow_lt_pow_right (by omega) (show b - 1 < w - 1 by omega)
    refine ⟨rfl, ?_⟩
    simp only
    rw [hv j hj', toInt_cast_of_bounds _ (by linarith) (by linarith) (by omega)]
    exact ⟨hlo, hhi⟩
  · conv_rhs => rw [← digits_recompose b l h _ hrep]
    rw [decompose_terms, weighted, ofInt_eq_cast, Int.cast_list_sum]
    simp only [List.map_map]
    congr 1
    apply List.map_congr_left
    intro j _
    simp [intCast_toInt]

/-- C09, witness: `0xB4` in two signed digits of three bits. -/
example : ValidParams 8 3 2 ∧ (decompose 3 2 (0xB4#8)).terms =
    [⟨2, 3, -3#8⟩, ⟨1, 3, -2#8⟩] :=
  ⟨⟨by omega, by omega, by omega⟩, by decide⟩

/-- Calling `next` a number of times. -/
def advance : Nat → Iter w → Iter w
  | 0, it => it
  | n + 1, it => advance n it.next.2

theorem advance_fresh (n : Nat) : ∀ it : Iter w, it.fresh = false → (advance n it).fresh = false := by
  induction n with
  | zero => intro it h; exact h
  | succ n ih =>
    intro it _
    refine ih _ ?_
    simp only [Iter.next]
    split <;> rfl

/-- C10. Recomposing a fresh decomposition returns the representable value nearest to the input;
recomposing an iterator on which `next` has been called at least once returns nothing. -/
theorem C10_recompose (b l : Nat) (h : ValidParams w b l) (x : BitVec w) :
    recompose (decompose b l x) = some (closestRepresentable b l x) ∧
    ∀ n : Nat, recompose (advance (n + 1) (decompose b l x)) = none := by
  obtain ⟨hrep, _⟩ := closest_signed b l h x
  constructor
  · have hf : (decompose b l x).fresh = true := rfl
    rw [recompose, hf, if_pos rfl, foldl_add_eq_sum]
    have h0 : (0#w : BitVec w) + ((decompose b l x).terms.map Term.toRecompositionSummand).sum =
        ((decompose b l x).terms.map Term.toRecompositionSummand).sum := zero_add _
    rw [h0, decompose_terms, List.map_map]
    conv_rhs => rw [← digits_recompose b l h _ hrep]
    congr 2
    apply List.map_congr_left
    intro j _
    simp [Term.toRecompositionSummand, shl_eq_mul]
  · intro n
    have hf : (advance (n + 1) (decompose b l x)).fresh = false := by
      rw [advance]
      apply advance_fresh
      simp only [Iter.next]
      split <;> rfl
    rw [recompose, hf]
    rfl

/-- C10, witness. -/
example : ValidParams 32 4 3 ∧ recompose (decompose 4 3 (0xDEADBEEF#32)) = some 0xDEB00000#32 ∧
    recompose (decompose 4 3 (0xDEADBEEF#32)).next.2 = none :=
  ⟨⟨by omega, by omega, by omega⟩, by decide, by decide⟩

/-- C11, first half. Decomposing a tensor is decomposing every element: there is one tensor term per
level, in the same order as for scalars, and its element `i` is the digit of element `i`. -/
theorem C11_decompose_tensor (b l : Nat) (xs : List (BitVec w)) :
    (decomposeTensor b l xs).terms.length = l ∧
    ∀ j < l, ∃ t, (decomposeTensor b l xs).terms[j]? = some t ∧ t.baseLog = b ∧
      t.tensor.length = xs.length ∧
      ∀ (i : Nat) (x : BitVec w), xs[i]? = some x → ∃ s, (decompose b l x).terms[j]? = some s ∧
        s.level = t.level ∧ t.tensor[i]? = some s.value := by
  rw [decomposeTensor_terms]
  refine ⟨by simp, ?_⟩
  intro j hj
  refine ⟨_, by rw [List.getElem?_map, List.getElem?_range hj]; rfl, rfl, by simp, ?_⟩
  intro i x hx
  rw [decompose_terms]
  refine ⟨_, by rw [List.getElem?_map, List.getElem?_range hj]; rfl, rfl, ?_⟩
  rw [List.getElem?_map, hx]
  rfl

/-- C11, second half, partial. The operation documented as filling a tensor with the recomposition
actually adds the nearest representable value of every element to what the tensor contained. It
therefore fills the tensor only if it was zero. Missing: the documented behaviour for an arbitrary
initial content, which is false (`C11_violated_by_accumulation`). -/
theorem C11_fill_tensor_with_recompose_partial (b l : Nat) (h : ValidParams w b l)
    (xs out : List (BitVec w)) (hlen : out.length = xs.length) :
    fillTensorWithRecompose (decomposeTensor b l xs) out =
      some (List.zipWith (fun o x => o + closestRepresentable b l x) out xs) ∧
    fillTensorWithRecompose (decomposeTensor b l xs) (List.replicate xs.length 0#w) =
      some (xs.map (closestRepresentable b l)) := by
  have main : ∀ out : List (BitVec w), out.length = xs.length →
      fillTensorWithRecompose (decomposeTensor b l xs) out =
      some (List.zipWith (fun o x => o + closestRepresentable b l x) out xs) := by
    intro out hlen
    have hf : (decomposeTensor b l xs).fresh = true := rfl
    rw [fillTensorWithRecompose, hf, if_pos rfl, decomposeTensor_terms,
      foldl_addSummand xs
        (fun j x => (digits b l (closestRepresentable b l x >>> (w - b * l))).getD j 0#w) b
        (fun j => l - j) (List.range l) out hlen]
    congr 2
    funext o x
    rw [digits_recompose b l h _ (closest_signed b l h x).1]
  refine ⟨main out hlen, ?_⟩
  rw [main _ (by simp)]
  congr 1
  apply List.ext_getElem
  · simp
  · intro i h1 h2
    simp

/-- Partially consumed tensor iterators are refused. -/
theorem C11_fill_tensor_not_fresh (it : TIter w) (out : List (BitVec w)) :
    fillTensorWithRecompose it.nextTerm.2 out = none := by
  have : it.nextTerm.2.fresh = false := by
    simp only [TIter.nextTerm]
    split <;> rfl
  rw [fillTensorWithRecompose, this]
  rfl

/-- C11, violation: on a tensor containing `1`, filling with the recomposition of `0x30` leaves
`0x31`, not `0x30`. -/
theorem C11_violated_by_accumulation :
    ¬ ∀ (b l : Nat) (_ : ValidParams 8 b l) (xs out : List (BitVec 8)), out.length = xs.length →
      fillTensorWithRecompose (decomposeTensor b l xs) out =
        some (xs.map (closestRepresentable b l)) := by
  intro h
  have := h 2 2 ⟨by omega, by omega, by omega⟩ [0x30#8] [1#8] rfl
  revert this
  decide

/-- The boundary `b * l = w`, which key generation accepts, is outside the contract: compiled without
overflow checks, the rounding of `0x80000000` (already representable with 32 bits of precision) is
`0x80000001`. -/
theorem C08_boundary_precision_release_wrong :
    closestRepresentableRaw 8 4 (0x80000000#32) = 0x80000001#32 := by decide

end Verif.Decomp
