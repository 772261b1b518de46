import Verif.Npe.PackSpec
import Verif.Npe.ExtProps
import Verif.Pks.Props2
/-
Helper lemmas for C100.
-/
namespace Verif.Npe
open Verif.Poly Verif.Decomp Verif.BV Verif.Glwe Verif.Lwe Verif.Pks Dist

variable {w n N k l : Nat} {α κ ε : Type} [Fintype α] [Fintype κ] [Fintype ε]

/-- The phase after the loop over the blocks, with the digits. -/
theorem blocks_explicit (hN : 0 < N) (b : Nat) (hv : ValidParams w b l)
    (key ksk : List (BitVec w)) (M : Nat → Rq (BitVec w) N) (err : Nat → Nat → Rq (BitVec w) N)
    (hk : KeyEnc N k b l n key ksk M err) (xs : List (BitVec w)) (hx : xs.length = n)
    (init : List (BitVec w)) (hi : CtFits N k init) :
      CtFits N k (((chunks (l * ((k + 1) * N)) ksk).zip xs).foldl
        (fun acc p => subBlock b l ((k + 1) * N) acc p.1 p.2) init) ∧
      glwePhase N k key (((chunks (l * ((k + 1) * N)) ksk).zip xs).foldl
        (fun acc p => subBlock b l ((k + 1) * N) acc p.1 p.2) init) = glwePhase N k key init -
          ∑ i ∈ Finset.range n, (const N (closestRepresentable b l (xs.getD i 0)) * M i +
            ∑ j ∈ Finset.range l,
              ((ksDigit b l (xs.getD i 0) (l - 1 - j)).toInt : Rq (BitVec w) N) * err i j) := by
  obtain ⟨hlen, hrow⟩ := hk
  have hkN : 0 < (k + 1) * N := Nat.mul_pos (by omega) hN
  have hpos : 0 < l * ((k + 1) * N) := Nat.mul_pos hv.level hkN
  have hz : (chunks (l * ((k + 1) * N)) ksk).zip xs =
      (List.range n).map fun i => (block (l * ((k + 1) * N)) ksk i, xs.getD i 0) := by
    rw [Lwe.zip_eq_map_range _ _ [] 0 (by rw [chunks_length _ hpos _ _ hlen, hx]),
      chunks_length _ hpos _ _ hlen]
    apply List.map_congr_left
    intro i hi
    rw [chunks_eq _ hpos _ _ hlen]
    simp [List.getD_eq_getElem?_getD, List.getElem?_range (List.mem_range.1 hi)]
  have key' := foldl_measure
    (fun (acc : List (BitVec w)) (p : List (BitVec w) × BitVec w) => subBlock b l ((k + 1) * N) acc p.1 p.2)
    (CtFits N k) (glwePhase N k key)
    (fun p => -(∑ j ∈ Finset.range l, glwePhase N k key (block ((k + 1) * N) p.1 (l - 1 - j)) *
        const N (Lwe.ksDigit b l p.2 j)))
    ((chunks (l * ((k + 1) * N)) ksk).zip xs) init hi (by
      intro st p hp hst
      have hp' : p.1.length = l * ((k + 1) * N) := by
        rw [hz] at hp
        obtain ⟨i, hi, rfl⟩ := List.mem_map.1 hp
        exact block_len _ n i ksk hlen (List.mem_range.1 hi)
      exact subBlock_spec hN key b l p.1 hp' p.2 st hst)
  choose d hd1 hd2 hd3 using fun i : Nat => Lwe.ksDigit_spec b l hv (xs.getD i 0)
  refine ⟨key'.1, ?_⟩
  rw [key'.2, hz, List.map_map, list_sum_range]
  simp only [Function.comp]
  rw [Finset.sum_neg_distrib, ← sub_eq_add_neg]
  congr 1
  refine Finset.sum_congr rfl fun i hi => ?_
  have hi' := Finset.mem_range.1 hi
  rw [← Finset.sum_range_reflect, ← hd3 i, const_sum, Finset.sum_mul, ← Finset.sum_add_distrib]
  refine Finset.sum_congr rfl fun j hj => ?_
  have hj' := Finset.mem_range.1 hj
  have hdig : const N (ksDigit b l (xs.getD i 0) (l - 1 - j)) =
      ((ksDigit b l (xs.getD i 0) (l - 1 - j)).toInt : Rq (BitVec w) N) := by
    rw [← const_int, intCast_toInt]
  rw [show l - 1 - (l - 1 - j) = j by omega, Lwe.block_block _ l _ i j hj', hrow i hi' j hj', add_mul,
    hdig, mul_comm (err i j)]
  congr 1
  rw [← hdig, hd2 i (l - 1 - j) (by omega), show l - 1 - (l - 1 - j) = j by omega, const_mul, const_int,
    const_nat]
  push_cast
  ring

theorem polyOf_smul (z : Int) (x : Fin N → Int) :
    polyOf w (fun i => z * x i) = (z : Rq (BitVec w) N) * polyOf w x := by
  simp only [polyOf_eq, Finset.mul_sum]
  refine Finset.sum_congr rfl fun i _ => ?_
  push_cast; rw [map_mul, map_intCast]; ring

theorem polyOf_const (hN : 0 < N) (z : Int) :
    polyOf w (fun i : Fin N => if (i : Nat) = 0 then z else 0) = const N (z : BitVec w) := by
  rw [polyOf_eq, Finset.sum_eq_single ⟨0, hN⟩]
  · simp [const]
  · intro i _ hi
    have : (i : Nat) ≠ 0 := fun h => hi (Fin.ext h)
    rw [if_neg this, Int.cast_zero, map_zero, zero_mul]
  · simp

/-- The noise that one word adds to coefficient `c`, for a key element `X` times `R`. -/
def elemNoise (b : Nat) (R : Int) (X : κ → Int) (e : ε → Int) (x : BitVec w × κ × (Fin l → Fin N → ε))
    (c : Fin N) : Int :=
  partNoise b l (fun s => (if (c : Nat) = 0 then R else 0) * X s) (fun z : Fin N → ε => e (z c)) x

omit [Fintype κ] [Fintype ε] in
theorem elem_poly (hN : 0 < N) (b : Nat) (R : Int) (X : κ → Int) (e : ε → Int)
    (x : BitVec w × κ × (Fin l → Fin N → ε)) :
    const N (closestRepresentable b l x.1) * const N ((R : BitVec w) * ((X x.2.1 : Int) : BitVec w)) +
      ∑ j : Fin l, ((ksDigit b l x.1 (l - 1 - j)).toInt : Rq (BitVec w) N) *
        polyOf w (fun c => e (x.2.2 j c)) =
    const N (x.1 * ((R : BitVec w) * ((X x.2.1 : Int) : BitVec w))) - polyOf w (elemNoise b R X e x) := by
  have h1 : polyOf w (elemNoise b R X e x) =
      polyOf w (fun c : Fin N => if (c : Nat) = 0 then R * X x.2.1 * roundErr b l x.1 else 0) -
        ∑ j : Fin l, ((ksDigit b l x.1 (l - 1 - j)).toInt : Rq (BitVec w) N) *
          polyOf w (fun c => e (x.2.2 j c)) := by
    rw [Finset.sum_congr rfl fun (j : Fin l) _ => (polyOf_smul _ (fun c => e (x.2.2 j c))).symm,
      ← polyOf_sum, ← polyOf_sub]
    congr 1
    funext c
    rw [elemNoise, partNoise]
    congr 1
    split <;> ring
  have hre : ((roundErr b l x.1 : Int) : BitVec w) = x.1 - closestRepresentable b l x.1 := by
    rw [roundErr, signedDiff, intCast_toInt]
  rw [h1, polyOf_const hN]
  push_cast
  rw [hre, ← const_mul]
  have : (R : BitVec w) * ((X x.2.1 : Int) : BitVec w) * (x.1 - closestRepresentable b l x.1) =
      x.1 * ((R : BitVec w) * ((X x.2.1 : Int) : BitVec w)) -
        closestRepresentable b l x.1 * ((R : BitVec w) * ((X x.2.1 : Int) : BitVec w)) := by ring
  rw [this, const_sub]
  ring

theorem E_coef (de : Dist ε) (e : ε → Int) (c : Fin N) :
    (iid N de).E (fun z => (e (z c) : ℚ)) = de.E (fun x => (e x : ℚ)) := by
  rw [iid, E_pi_one (fun _ => de) c (fun x => (e x : ℚ))]

theorem Var_coef (de : Dist ε) (e : ε → Int) (c : Fin N) :
    (iid N de).Var (fun z => (e (z c) : ℚ)) = de.Var (fun x => (e x : ℚ)) := by
  rw [Var_eq, Var_eq, E_coef, iid, E_pi_one (fun _ => de) c (fun x => (e x : ℚ) ^ 2)]

/-- The variance of the noise of one word. -/
theorem elemNoise_Var (b : Nat) (hv : ValidParams w b l) (dk : Dist κ) (de : Dist ε) (R : Int) (X : κ → Int)
    (e : ε → Int) (he : de.E (fun x => (e x : ℚ)) = 0) (c : Fin N) :
    ((uniform (BitVec w)).prod (dk.prod (iid l (iid N de)))).Var (fun x => (elemNoise b R X e x c : ℚ)) =
      (if (c : Nat) = 0 then (R : ℚ) ^ 2 * (((2 ^ (w - b * l) : ℚ) ^ 2 + 2) / 12 * dk.E (fun x => (X x : ℚ) ^ 2)
        - (1 / 2 * dk.E (fun x => (X x : ℚ))) ^ 2) else 0) +
        de.Var (fun x => (e x : ℚ)) * (l * (((2 ^ b : ℚ) ^ 2 + 2) / 12) - digitGap (2 ^ b) l) := by
  obtain ⟨h1, h2⟩ := partNoise_E b hv dk (iid N de) (fun s => (if (c : Nat) = 0 then R else 0) * X s)
    (fun z : Fin N → ε => e (z c)) (by rw [E_coef, he])
  rw [Var_eq]
  simp only [elemNoise]
  rw [h1, h2, Var_coef, sum_meanSq]
  split
  · rename_i h
    push_cast
    rw [E_mul_left, E_congr dk (Y := fun x => (R : ℚ) ^ 2 * (X x : ℚ) ^ 2) (fun x => by push_cast; ring),
      E_mul_left]
    ring
  · simp [E_const]

omit [Fintype κ] [Fintype ε] in
theorem elemNoise_bound (b : Nat) (hv : ValidParams w b l) (R : Int) (X : κ → Int) (e : ε → Int)
    (A₁ A₂ : Nat) (h₁ : ∀ x, |R * X x| ≤ A₁) (h₂ : ∀ x, |e x| ≤ A₂)
    (x : BitVec w × κ × (Fin l → Fin N → ε)) (c : Fin N) :
    |elemNoise b R X e x c| ≤ A₁ * 2 ^ (w - b * l - 1) + l * (2 ^ (b - 1) * A₂) := by
  have := totalNoise_bound (n := 1) (α := Unit) b hv (fun s => (if (c : Nat) = 0 then R else 0) * X s)
    (fun _ => 0) (fun z : Fin N → ε => e (z c)) 0 A₁ A₂ (by simp)
    (fun s => by split
                 · exact h₁ s
                 · simp) (fun z => h₂ _) ((), fun _ => x)
  simpa [totalNoise, elemNoise] using this

end Verif.Npe
