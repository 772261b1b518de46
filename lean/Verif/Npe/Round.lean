import Verif.Npe.ProbLemmas
import Verif.Decomp.Props
import Mathlib.Algebra.Order.Ring.Int
import Mathlib.Algebra.BigOperators.Fin
/-
Helper lemmas: sums over all torus words, and the distribution of the rounding error of a uniform word.
-/
namespace Verif.Npe
open Verif.Decomp Verif.BV

variable {w : Nat}

/-- A word of `w` bits is one of `2^w` values. -/
def wordEquiv (w : Nat) : Fin (2 ^ w) ≃ BitVec w where
  toFun := BitVec.ofFin
  invFun := BitVec.toFin
  left_inv _ := rfl
  right_inv _ := rfl

instance : Fintype (BitVec w) := Fintype.ofEquiv _ (wordEquiv w)

theorem card_word : Fintype.card (BitVec w) = 2 ^ w := by
  rw [← Fintype.card_congr (wordEquiv w), Fintype.card_fin]

theorem sum_words (f : Nat → ℚ) : ∑ x : BitVec w, f x.toNat = ∑ i ∈ Finset.range (2 ^ w), f i := by
  rw [Finset.sum_range, ← Equiv.sum_comp (wordEquiv w)]
  rfl

/-! ### Sums of periodic functions -/

theorem sum_shift_one (M : Nat) (H : Nat → ℚ) (hH : ∀ x, H (x + M) = H x) :
    ∑ x ∈ Finset.range M, H (x + 1) = ∑ x ∈ Finset.range M, H x := by
  have h1 := Finset.sum_range_succ' H M
  have h2 := Finset.sum_range_succ H M
  have h3 := hH 0
  rw [Nat.zero_add] at h3
  linarith

theorem sum_shift (M : Nat) (H : Nat → ℚ) (hH : ∀ x, H (x + M) = H x) (k : Nat) :
    ∑ x ∈ Finset.range M, H (x + k) = ∑ x ∈ Finset.range M, H x := by
  induction k with
  | zero => rfl
  | succ k ih =>
    rw [← ih, ← sum_shift_one M (fun x => H (x + k)) (fun x => by
      rw [show x + M + k = x + k + M by omega, hH])]
    exact Finset.sum_congr rfl fun x _ => by rw [show x + (k + 1) = x + 1 + k by omega]

/-- Splitting a range in blocks. -/
theorem sum_blocks (D M : Nat) (H : Nat → ℚ) :
    ∑ x ∈ Finset.range (D * M), H x =
      ∑ u ∈ Finset.range M, ∑ y ∈ Finset.range D, H (D * u + y) := by
  induction M with
  | zero => simp
  | succ M ih => rw [Nat.mul_succ, Finset.sum_range_add, ih, Finset.sum_range_succ]

theorem sum_mod (D M k : Nat) (f : Nat → ℚ) :
    ∑ x ∈ Finset.range (D * M), f ((x + k) % D) = M * ∑ y ∈ Finset.range D, f y := by
  rw [sum_blocks]
  have : ∀ u, ∑ y ∈ Finset.range D, f ((D * u + y + k) % D) = ∑ y ∈ Finset.range D, f y := by
    intro u
    rw [Finset.sum_congr rfl (g := fun y => f ((y + k) % D)) (fun y _ => by
        rw [show D * u + y + k = y + k + D * u by omega, Nat.add_mul_mod_self_left]),
      sum_shift D (fun y => f (y % D)) (fun x => by simp) k]
    exact Finset.sum_congr rfl fun y hy => by rw [Nat.mod_eq_of_lt (Finset.mem_range.1 hy)]
  rw [Finset.sum_congr rfl fun u _ => this u]
  simp

theorem sum_div (D M k : Nat) (hD : 0 < D) (hM : 0 < M) (f : Nat → ℚ) :
    ∑ x ∈ Finset.range (D * M), f ((x + k) / D % M) = D * ∑ s ∈ Finset.range M, f s := by
  rw [sum_shift (D * M) (fun x => f (x / D % M)) (fun x => by
    rw [Nat.add_mul_div_left _ _ hD, Nat.add_mod_right]) k, sum_blocks, Finset.mul_sum]
  refine Finset.sum_congr rfl fun u hu => ?_
  rw [Finset.sum_congr rfl (g := fun _ => f u) (fun y hy => by
    rw [Nat.mul_add_div hD, Nat.div_eq_of_lt (Finset.mem_range.1 hy), Nat.add_zero,
      Nat.mod_eq_of_lt (Finset.mem_range.1 hu)])]
  simp

/-! ### The rounding error -/

/-- The signed rounding error of a word. -/
def roundErr (b l : Nat) (x : BitVec w) : Int := signedDiff x (closestRepresentable b l x)

theorem roundErr_eq (b l : Nat) (hv : ValidParams w b l) (x : BitVec w) :
    roundErr b l x = ((x.toNat + 2 ^ (w - b * l - 1)) % 2 ^ (w - b * l) : Nat) -
      (2 ^ (w - b * l - 1) : Int) := by
  have hcomm : l * b = b * l := Nat.mul_comm _ _
  have hbl : l * b < w := by rw [hcomm]; exact hv.fits
  have hn := closest_toNat b l x hbl
  rw [hcomm] at hn
  generalize hn' : w - b * l = n at *
  have hn0 : 0 < n := by have := hv.fits; omega
  have hm := Nat.mod_lt (x.toNat + 2 ^ (n - 1)) (show 2 ^ n > 0 from Nat.two_pow_pos n)
  have hd := Nat.div_add_mod (x.toNat + 2 ^ (n - 1)) (2 ^ n)
  have e2 : 2 ^ n = 2 * 2 ^ (n - 1) := by rw [← pow_succ']; congr 1; omega
  generalize he : (((x.toNat + 2 ^ (n - 1)) % 2 ^ n : Nat) : Int) - (2 ^ (n - 1) : Int) = e
  have hb1 : -(2 ^ (n - 1) : Int) ≤ e := by
    have : (0 : Int) ≤ (((x.toNat + 2 ^ (n - 1)) % 2 ^ n : Nat) : Int) := Int.natCast_nonneg _
    omega
  have hb2 : e < (2 ^ (n - 1) : Int) := by
    have h1 : (((x.toNat + 2 ^ (n - 1)) % 2 ^ n : Nat) : Int) < ((2 ^ n : Nat) : Int) := by
      exact_mod_cast hm
    have h2 : ((2 ^ n : Nat) : Int) = 2 * 2 ^ (n - 1) := by rw [e2]; push_cast; ring
    omega
  have hx : (x.toNat : Int) = ((x.toNat + 2 ^ (n - 1)) / 2 ^ n : Nat) * 2 ^ n + e := by
    have := congrArg (fun z : Nat => (z : Int)) hd
    push_cast at this he ⊢
    linarith
  rw [roundErr, signedDiff]
  have hc : closestRepresentable b l x =
      (((x.toNat + 2 ^ (n - 1)) / 2 ^ n * 2 ^ n : Nat) : BitVec w) := by
    rw [← natCast_toNat (closestRepresentable b l x), natCast_eq_iff, hn, Nat.mod_mod]
  have h1 : x = ((((x.toNat + 2 ^ (n - 1)) / 2 ^ n : Nat) * 2 ^ n + e : Int) : BitVec w) := by
    rw [← hx]; simp
  have h3 : x - closestRepresentable b l x = ((e : Int) : BitVec w) := by
    rw [hc]
    generalize (x.toNat + 2 ^ (n - 1)) / 2 ^ n = qq at *
    rw [h1]
    push_cast; ring
  have hmono : (2 ^ (n - 1) : Int) ≤ 2 ^ (w - 1) := by
    exact_mod_cast Nat.pow_le_pow_right (by omega) (by omega)
  rw [h3]
  exact toInt_cast_of_bounds e (by linarith) (by linarith) (by have := hv.fits; omega)

theorem sum_range_lin (D : Nat) (c : ℚ) :
    ∑ y ∈ Finset.range D, ((y : ℚ) - c) = D * ((D : ℚ) - 1) / 2 - D * c := by
  induction D with
  | zero => simp
  | succ D ih => rw [Finset.sum_range_succ, ih]; push_cast; ring

theorem sum_range_sq (D : Nat) (c : ℚ) :
    ∑ y ∈ Finset.range D, ((y : ℚ) - c) ^ 2 =
      ((D : ℚ) - 1) * D * (2 * D - 1) / 6 - c * D * (D - 1) + D * c ^ 2 := by
  induction D with
  | zero => simp
  | succ D ih => rw [Finset.sum_range_succ, ih]; push_cast; ring

open Dist

theorem E_words (f : Nat → ℚ) :
    (uniform (BitVec w)).E (fun x => f x.toNat) = (∑ i ∈ Finset.range (2 ^ w), f i) / 2 ^ w := by
  rw [E_uniform, card_word, sum_words]; push_cast; rfl

theorem E_roundErr_f (b l : Nat) (hv : ValidParams w b l) (f : ℚ → ℚ) :
    (uniform (BitVec w)).E (fun x => f (roundErr b l x : ℚ)) =
      (∑ y ∈ Finset.range (2 ^ (w - b * l)), f ((y : ℚ) - 2 ^ (w - b * l - 1))) / 2 ^ (w - b * l) := by
  have hw : 2 ^ w = 2 ^ (w - b * l) * 2 ^ (b * l) := by
    rw [← pow_add]; congr 1; have := hv.fits; omega
  set g : Nat → ℚ := fun y => f ((y : ℚ) - 2 ^ (w - b * l - 1)) with hg
  have he : ∀ x : BitVec w, f (roundErr b l x : ℚ) =
      g ((x.toNat + 2 ^ (w - b * l - 1)) % 2 ^ (w - b * l)) := by
    intro x; rw [roundErr_eq b l hv, hg]; push_cast; rfl
  rw [E_congr _ he, E_words (w := w) (fun i => g ((i + 2 ^ (w - b * l - 1)) % 2 ^ (w - b * l))), hw,
    sum_mod]
  have h1 : (2 ^ (b * l) : ℚ) ≠ 0 := by positivity
  have h2 : (2 ^ (w - b * l) : ℚ) ≠ 0 := by positivity
  have h3 : (2 ^ w : ℚ) = 2 ^ (w - b * l) * 2 ^ (b * l) := by exact_mod_cast hw
  rw [h3]
  push_cast
  field_simp

/-- The rounding error of a uniform word has expectation `-1/2`. -/
theorem E_roundErr (b l : Nat) (hv : ValidParams w b l) :
    (uniform (BitVec w)).E (fun x => (roundErr b l x : ℚ)) = -1 / 2 := by
  rw [E_roundErr_f b l hv (fun x => x), sum_range_lin]
  have h2 : (2 ^ (w - b * l) : ℚ) = 2 * 2 ^ (w - b * l - 1) := by
    rw [← pow_succ']; congr 1; have := hv.fits; omega
  have h3 : (2 ^ (w - b * l - 1) : ℚ) ≠ 0 := by positivity
  push_cast
  rw [h2]
  field_simp
  ring

/-- The expected square of the rounding error of a uniform word. -/
theorem E_roundErr_sq (b l : Nat) (hv : ValidParams w b l) :
    (uniform (BitVec w)).E (fun x => (roundErr b l x : ℚ) ^ 2) =
      ((2 ^ (w - b * l) : ℚ) ^ 2 + 2) / 12 := by
  rw [E_roundErr_f b l hv (fun x => x ^ 2), sum_range_sq]
  have h2 : (2 ^ (w - b * l) : ℚ) = 2 * 2 ^ (w - b * l - 1) := by
    rw [← pow_succ']; congr 1; have := hv.fits; omega
  have h3 : (2 ^ (w - b * l - 1) : ℚ) ≠ 0 := by positivity
  push_cast
  rw [h2]
  field_simp
  ring

end Verif.Npe
