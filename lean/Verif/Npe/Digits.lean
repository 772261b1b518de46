import Verif.Npe.Round
import Verif.Lwe.Props2
/-
Helper lemmas: the expected squares of the signed digits of a uniform word.
-/
namespace Verif.Npe
open Verif.Decomp Verif.BV Verif.Lwe

variable {w : Nat}

/-- The carry of one level, on natural numbers. -/
def carryNat (b s : Nat) : Nat :=
  if 2 ^ (b - 1) < s % 2 ^ b ∨ (s % 2 ^ b = 2 ^ (b - 1) ∧ s / 2 ^ b / 2 ^ (b - 1) % 2 = 1) then 1 else 0

/-- The state after one level. -/
def nextNat (b s : Nat) : Nat := s / 2 ^ b + carryNat b s

/-- The digit of one level. -/
def digitInt (b s : Nat) : Int := (s % 2 ^ b : Nat) - 2 ^ b * (carryNat b s : Int)

/-- The digit after `j` levels. -/
def digitAt (b : Nat) : Nat → Nat → Int
  | 0, s => digitInt b s
  | j + 1, s => digitAt b j (nextNat b s)

theorem oneLevel_nat (b : Nat) (hb : 0 < b) (hbw : b < w) (s : BitVec w) :
    (decomposeOneLevel b s ((1#w <<< b) - 1#w)).1 = ((digitInt b s.toNat : Int) : BitVec w) ∧
      (decomposeOneLevel b s ((1#w <<< b) - 1#w)).2.toNat = nextNat b s.toNat := by
  have hr := and_mask s b hbw
  have e : 2 ^ b = 2 * 2 ^ (b - 1) := by rw [← pow_succ']; congr 1; omega
  have hp := Nat.two_pow_pos (b - 1)
  have hlt : (s &&& ((1#w <<< b) - 1#w)).toNat < 2 ^ b := by
    rw [hr]; exact Nat.mod_lt _ (Nat.two_pow_pos b)
  have hc := carry_toNat b hb hbw (s &&& ((1#w <<< b) - 1#w)) (s >>> b) hlt
  have hst : (s >>> b).toNat = s.toNat / 2 ^ b := by
    rw [BitVec.toNat_ushiftRight, Nat.shiftRight_eq_div_pow]
  have hcn : ((((s &&& ((1#w <<< b) - 1#w)) - 1#w ||| s >>> b) &&& (s &&& ((1#w <<< b) - 1#w))) >>>
      (b - 1)).toNat = carryNat b s.toNat := by
    rw [hc, hr, hst, carryNat]
  simp only [decomposeOneLevel]
  generalize hres : s &&& ((1#w <<< b) - 1#w) = res at *
  generalize hcar : (((res - 1#w) ||| s >>> b) &&& res) >>> (b - 1) = car at *
  refine ⟨?_, ?_⟩
  · rw [shl_eq_mul, digitInt, ← hcn, ← hr]
    push_cast
    rw [natCast_toNat, natCast_toNat]
    ring
  · rw [BitVec.toNat_add, hst, nextNat, ← hcn, Nat.mod_eq_of_lt]
    have h1 : car.toNat ≤ 1 := by rw [hcn, carryNat]; split <;> omega
    have h2 : s.toNat / 2 ^ b ≤ s.toNat / 2 := by
      rw [e]; exact Nat.div_le_div_left (by omega) (by omega)
    have h3 := s.isLt
    have h4 : 2 ^ 2 ≤ 2 ^ w := Nat.pow_le_pow_right (by omega) (by omega)
    omega

theorem digits_getD (b : Nat) (hb : 0 < b) (hbw : b < w) :
    ∀ (l j : Nat) (s : BitVec w), j < l →
      (digits b l s).getD j 0#w = ((digitAt b j s.toNat : Int) : BitVec w) := by
  intro l
  induction l with
  | zero => intro j s h; omega
  | succ l ih =>
    intro j s h
    obtain ⟨h1, h2⟩ := oneLevel_nat b hb hbw s
    cases j with
    | zero => simp only [digits, List.getD_cons_zero]; rw [h1]; rfl
    | succ j =>
      simp only [digits, List.getD_cons_succ]
      rw [ih j _ (by omega), h2]; rfl

theorem digitInt_bounds (b : Nat) (hb : 0 < b) (s : Nat) :
    -(2 ^ (b - 1) : Int) ≤ digitInt b s ∧ digitInt b s ≤ 2 ^ (b - 1) := by
  have e : (2 : Nat) ^ b = 2 * 2 ^ (b - 1) := by rw [← pow_succ']; congr 1; omega
  have e' : (2 : Int) ^ b = 2 * 2 ^ (b - 1) := by rw [← pow_succ']; congr 1; omega
  have hlt := Nat.mod_lt s (Nat.two_pow_pos b)
  have hp := Nat.two_pow_pos (b - 1)
  have hc : ((2 ^ (b - 1) : Nat) : Int) = 2 ^ (b - 1) := by push_cast; rfl
  rw [digitInt, carryNat, e', ← hc]
  generalize s % 2 ^ b = x at *
  split <;> constructor <;> push_cast <;> omega

theorem digitAt_bounds (b : Nat) (hb : 0 < b) :
    ∀ (j s : Nat), -(2 ^ (b - 1) : Int) ≤ digitAt b j s ∧ digitAt b j s ≤ 2 ^ (b - 1) := by
  intro j
  induction j with
  | zero => exact digitInt_bounds b hb
  | succ j ih => intro s; exact ih _

/-! ### The average of the squares -/

/-- The square of a digit depends on the state only modulo the base. -/
theorem digitInt_sq (b : Nat) (hb : 0 < b) (s : Nat) :
    (digitInt b s : ℚ) ^ 2 = if s % 2 ^ b < 2 ^ (b - 1) then ((s % 2 ^ b : Nat) : ℚ) ^ 2
      else (((2 ^ b : Nat) : ℚ) - (s % 2 ^ b : Nat)) ^ 2 := by
  have e : (2 : Nat) ^ b = 2 * 2 ^ (b - 1) := by rw [← pow_succ']; congr 1; omega
  rw [digitInt, carryNat]
  generalize hx : s % 2 ^ b = x
  by_cases h : x < 2 ^ (b - 1)
  · rw [if_pos h, if_neg (by omega)]; push_cast; ring
  · rw [if_neg h]
    split
    · push_cast; ring
    · rename_i h'
      have : x = 2 ^ (b - 1) := by omega
      rw [e, this]; push_cast; ring

/-- The squared digit. -/
def sqDig (b j s : Nat) : ℚ := (digitAt b j s : ℚ) ^ 2

theorem sqDig_succ (b j s : Nat) : sqDig b (j + 1) s = sqDig b j (nextNat b s) := rfl

theorem nextNat_add (b : Nat) (hb : 0 < b) (s t : Nat) :
    nextNat b (s + 2 ^ b * (2 ^ b * t)) = nextNat b s + 2 ^ b * t := by
  have e : (2 : Nat) ^ b = 2 ^ (b - 1) * 2 := by rw [← pow_succ]; congr 1; omega
  have h1 : (s + 2 ^ b * (2 ^ b * t)) % 2 ^ b = s % 2 ^ b := Nat.add_mul_mod_self_left _ _ _
  have h2 : (s + 2 ^ b * (2 ^ b * t)) / 2 ^ b = s / 2 ^ b + 2 ^ b * t :=
    Nat.add_mul_div_left _ _ (Nat.two_pow_pos b)
  have h3 : (s / 2 ^ b + 2 ^ b * t) / 2 ^ (b - 1) % 2 = s / 2 ^ b / 2 ^ (b - 1) % 2 := by
    rw [show 2 ^ b * t = 2 ^ (b - 1) * (2 * t) by rw [e]; ring,
      Nat.add_mul_div_left _ _ (Nat.two_pow_pos _), Nat.add_mul_mod_self_left]
  rw [nextNat, nextNat, carryNat, carryNat, h1, h2, h3]
  omega

theorem sqDig_periodic (b : Nat) (hb : 0 < b) :
    ∀ (j s t : Nat), sqDig b j (s + (2 ^ b) ^ (j + 1) * t) = sqDig b j s := by
  intro j
  induction j with
  | zero =>
    intro s t
    rw [sqDig, sqDig, digitAt, digitAt, digitInt_sq b hb, digitInt_sq b hb, pow_one,
      Nat.add_mul_mod_self_left]
  | succ j ih =>
    intro s t
    rw [sqDig_succ, sqDig_succ, show (2 ^ b) ^ (j + 1 + 1) * t = 2 ^ b * (2 ^ b * ((2 ^ b) ^ j * t)) by ring,
      nextNat_add b hb, show 2 ^ b * ((2 ^ b) ^ j * t) = (2 ^ b) ^ (j + 1) * t by ring, ih]

theorem sqDig_mod (b : Nat) (hb : 0 < b) (j s : Nat) : sqDig b j s = sqDig b j (s % (2 ^ b) ^ (j + 1)) := by
  conv_lhs => rw [← Nat.mod_add_div s ((2 ^ b) ^ (j + 1))]
  exact sqDig_periodic b hb j _ _

/-- The sum over one period. -/
def digSum (b j : Nat) : ℚ := ∑ s ∈ Finset.range ((2 ^ b) ^ (j + 1)), sqDig b j s

/-- The sum over one period after a tie. -/
def tieSum (b j : Nat) : ℚ :=
  ∑ u ∈ Finset.range ((2 ^ b) ^ (j + 1)), sqDig b j (u + u / 2 ^ (b - 1) % 2)

theorem digSum_shift (b j : Nat) (hb : 0 < b) :
    ∑ u ∈ Finset.range ((2 ^ b) ^ (j + 1)), sqDig b j (u + 1) = digSum b j :=
  sum_shift_one _ _ fun x => by
    have := sqDig_periodic b hb j x 1
    rwa [Nat.mul_one] at this

theorem next_block (b u y : Nat) (hy : y < 2 ^ b) :
    nextNat b (2 ^ b * u + y) = u + (if 2 ^ (b - 1) < y ∨ (y = 2 ^ (b - 1) ∧ u / 2 ^ (b - 1) % 2 = 1)
      then 1 else 0) := by
  rw [nextNat, carryNat, Nat.mul_add_mod, Nat.mod_eq_of_lt hy, Nat.mul_add_div (Nat.two_pow_pos b),
    Nat.div_eq_of_lt hy, Nat.add_zero]

theorem digSum_succ (b j : Nat) (hb : 0 < b) :
    digSum b (j + 1) = ((2 ^ b : ℚ) - 1) * digSum b j + tieSum b j := by
  have e : (2 : Nat) ^ b = 2 * 2 ^ (b - 1) := by rw [← pow_succ']; congr 1; omega
  have hp := Nat.two_pow_pos (b - 1)
  rw [digSum, pow_succ' _ (j + 1), sum_blocks, Finset.sum_comm]
  have hy : ∀ y ∈ Finset.range (2 ^ b), ∑ u ∈ Finset.range ((2 ^ b) ^ (j + 1)),
      sqDig b (j + 1) (2 ^ b * u + y) = if y = 2 ^ (b - 1) then tieSum b j else digSum b j := by
    intro y hy
    have hy' := Finset.mem_range.1 hy
    by_cases h : y = 2 ^ (b - 1)
    · rw [if_pos h, tieSum]
      refine Finset.sum_congr rfl fun u _ => ?_
      rw [sqDig_succ, next_block b u y hy']
      congr 2
      subst h
      have := Nat.mod_lt (u / 2 ^ (b - 1)) (show 2 > 0 by omega)
      split <;> omega
    · rw [if_neg h]
      by_cases h2 : y < 2 ^ (b - 1)
      · rw [digSum]
        refine Finset.sum_congr rfl fun u _ => ?_
        rw [sqDig_succ, next_block b u y hy', if_neg (by omega), Nat.add_zero]
      · rw [← digSum_shift b j hb]
        refine Finset.sum_congr rfl fun u _ => ?_
        rw [sqDig_succ, next_block b u y hy', if_pos (by omega)]
  rw [Finset.sum_congr rfl hy, ← Finset.add_sum_erase _ _ (Finset.mem_range.2 (by omega : 2 ^ (b - 1) < 2 ^ b)),
    if_pos rfl, Finset.sum_congr rfl (g := fun _ => digSum b j) (fun y hy => by
      rw [if_neg (by simpa using (Finset.mem_erase.1 hy).1)]),
    Finset.sum_const, Finset.card_erase_of_mem (Finset.mem_range.2 (by omega : 2 ^ (b - 1) < 2 ^ b)),
    Finset.card_range, nsmul_eq_mul, Nat.cast_sub (Nat.one_le_two_pow)]
  push_cast; ring

theorem tieSum_succ (b j : Nat) (hb : 0 < b) : tieSum b (j + 1) = 2 ^ b * digSum b j := by
  have e : (2 : Nat) ^ b = 2 * 2 ^ (b - 1) := by rw [← pow_succ']; congr 1; omega
  have hp := Nat.two_pow_pos (b - 1)
  rw [tieSum, pow_succ' _ (j + 1), sum_blocks, Finset.sum_comm]
  have hy : ∀ y ∈ Finset.range (2 ^ b), ∑ u ∈ Finset.range ((2 ^ b) ^ (j + 1)),
      sqDig b (j + 1) (2 ^ b * u + y + (2 ^ b * u + y) / 2 ^ (b - 1) % 2) = digSum b j := by
    intro y hy
    have hy' := Finset.mem_range.1 hy
    have hbit : ∀ u, (2 ^ b * u + y) / 2 ^ (b - 1) % 2 = y / 2 ^ (b - 1) := by
      intro u
      rw [show 2 ^ b * u + y = y + 2 ^ (b - 1) * (2 * u) by rw [e]; ring,
        Nat.add_mul_div_left _ _ hp, Nat.add_mul_mod_self_left, Nat.mod_eq_of_lt]
      rw [Nat.div_lt_iff_lt_mul hp]; omega
    by_cases h : y < 2 ^ (b - 1)
    · rw [digSum]
      refine Finset.sum_congr rfl fun u _ => ?_
      rw [hbit, Nat.div_eq_of_lt h, sqDig_succ]
      simp only [Nat.add_zero]
      rw [next_block b u y hy', if_neg (by omega), Nat.add_zero]
    · have h1 : y / 2 ^ (b - 1) = 1 := by
        rw [Nat.div_eq_iff hp]; omega
      rw [← digSum_shift b j hb]
      refine Finset.sum_congr rfl fun u _ => ?_
      rw [hbit, h1, sqDig_succ]
      by_cases h2 : y + 1 < 2 ^ b
      · rw [Nat.add_assoc, next_block b u (y + 1) h2, if_pos (by omega)]
      · rw [show 2 ^ b * u + y + 1 = 2 ^ b * (u + 1) + 0 by rw [Nat.mul_succ]; omega,
          next_block b (u + 1) 0 (by omega), if_neg (by omega), Nat.add_zero]
  rw [Finset.sum_congr rfl hy, Finset.sum_const, Finset.card_range, nsmul_eq_mul]
  push_cast; ring

theorem sum_halves (H : Nat) (f : Nat → ℚ) :
    ∑ x ∈ Finset.range (2 * H), f x =
      ∑ x ∈ Finset.range H, f x + ∑ x ∈ Finset.range H, f (H + x) := by
  rw [Nat.two_mul, Finset.sum_range_add]

theorem digSum_zero (b : Nat) (hb : 0 < b) :
    digSum b 0 = 2 ^ b * ((2 ^ b : ℚ) ^ 2 + 2) / 12 := by
  have e : (2 : Nat) ^ b = 2 * 2 ^ (b - 1) := by rw [← pow_succ']; congr 1; omega
  have e' : (2 : ℚ) ^ b = 2 * 2 ^ (b - 1) := by rw [← pow_succ']; congr 1; omega
  rw [digSum, Nat.zero_add, pow_one]
  conv_lhs => rw [e]
  rw [sum_halves]
  have h1 : ∑ x ∈ Finset.range (2 ^ (b - 1)), sqDig b 0 x =
      ∑ x ∈ Finset.range (2 ^ (b - 1)), ((x : ℚ) - 0) ^ 2 := by
    refine Finset.sum_congr rfl fun x hx => ?_
    have hx' := Finset.mem_range.1 hx
    rw [sqDig, digitAt, digitInt_sq b hb, Nat.mod_eq_of_lt (by omega), if_pos hx', sub_zero]
  have h2 : ∑ x ∈ Finset.range (2 ^ (b - 1)), sqDig b 0 (2 ^ (b - 1) + x) =
      ∑ x ∈ Finset.range (2 ^ (b - 1)), ((x : ℚ) - 2 ^ (b - 1)) ^ 2 := by
    refine Finset.sum_congr rfl fun x hx => ?_
    have hx' := Finset.mem_range.1 hx
    rw [sqDig, digitAt, digitInt_sq b hb, Nat.mod_eq_of_lt (by omega), if_neg (by omega), e]
    push_cast; ring
  rw [h1, h2, sum_range_sq, sum_range_sq, e']
  push_cast; ring

theorem tieSum_zero (b : Nat) (hb : 0 < b) : tieSum b 0 = digSum b 0 - (2 ^ b : ℚ) ^ 2 / 4 := by
  have e : (2 : Nat) ^ b = 2 * 2 ^ (b - 1) := by rw [← pow_succ']; congr 1; omega
  have e' : (2 : ℚ) ^ b = 2 * 2 ^ (b - 1) := by rw [← pow_succ']; congr 1; omega
  have hp := Nat.two_pow_pos (b - 1)
  rw [tieSum, digSum, Nat.zero_add, pow_one]
  conv_lhs => rw [e]
  conv_rhs => rw [e]
  rw [sum_halves, sum_halves]
  have h1 : ∑ x ∈ Finset.range (2 ^ (b - 1)), sqDig b 0 (x + x / 2 ^ (b - 1) % 2) =
      ∑ x ∈ Finset.range (2 ^ (b - 1)), sqDig b 0 x := by
    refine Finset.sum_congr rfl fun x hx => ?_
    rw [Nat.div_eq_of_lt (Finset.mem_range.1 hx), Nat.zero_mod, Nat.add_zero]
  have h2 : ∑ x ∈ Finset.range (2 ^ (b - 1)),
      sqDig b 0 (2 ^ (b - 1) + x + (2 ^ (b - 1) + x) / 2 ^ (b - 1) % 2) =
      ∑ x ∈ Finset.range (2 ^ (b - 1)), sqDig b 0 (2 ^ (b - 1) + (x + 1)) := by
    refine Finset.sum_congr rfl fun x hx => ?_
    rw [show (2 ^ (b - 1) + x) / 2 ^ (b - 1) = 1 by
      rw [Nat.div_eq_iff hp]; have := Finset.mem_range.1 hx; omega]
    rfl
  have h3 := Finset.sum_range_succ' (fun x => sqDig b 0 (2 ^ (b - 1) + x)) (2 ^ (b - 1))
  have h4 := Finset.sum_range_succ (fun x => sqDig b 0 (2 ^ (b - 1) + x)) (2 ^ (b - 1))
  have h5 : sqDig b 0 (2 ^ (b - 1) + 2 ^ (b - 1)) = 0 := by
    rw [sqDig, digitAt, digitInt_sq b hb, ← Nat.two_mul, ← e, Nat.mod_self, if_pos hp]; simp
  have h6 : sqDig b 0 (2 ^ (b - 1) + 0) = (2 ^ b : ℚ) ^ 2 / 4 := by
    rw [sqDig, digitAt, digitInt_sq b hb, Nat.add_zero, Nat.mod_eq_of_lt (by omega),
      if_neg (by omega), e']
    push_cast; rw [e']; ring
  rw [h1, h2]
  rw [h5] at h4
  rw [h6] at h3
  linarith

/-- The expected square of the digit of index `j` (from the least significant one), base `B`. -/
def meanSq (B : ℚ) (j : Nat) : ℚ := (B ^ 2 + 2) / 12 - 1 / 4 * ∑ i ∈ Finset.range j, (-1 / B) ^ i

theorem digSum_eq (b : Nat) (hb : 0 < b) (j : Nat) :
    digSum b j = (2 ^ b : ℚ) ^ (j + 1) * meanSq (2 ^ b) j ∧
      digSum b (j + 1) = (2 ^ b : ℚ) ^ (j + 2) * meanSq (2 ^ b) (j + 1) := by
  have hB : (2 ^ b : ℚ) ≠ 0 := by positivity
  induction j with
  | zero =>
    refine ⟨?_, ?_⟩
    · rw [digSum_zero b hb, meanSq]; simp; ring
    · rw [digSum_succ b 0 hb, tieSum_zero b hb, digSum_zero b hb, meanSq]; simp; ring
  | succ j ih =>
    refine ⟨ih.2, ?_⟩
    rw [digSum_succ b (j + 1) hb, tieSum_succ b j hb, ih.1, ih.2]
    simp only [meanSq, Finset.sum_range_succ]
    generalize ∑ i ∈ Finset.range j, (-1 / (2 ^ b : ℚ)) ^ i = G
    generalize (2 ^ b : ℚ) = B at *
    have h1 : (-1 / B) ^ (j + 1) = (-1 / B) ^ j * (-1 / B) := pow_succ _ _
    rw [h1]
    generalize (-1 / B) ^ j = g
    field_simp
    ring

open Dist

/-- The expected square of a digit of the keyswitch over uniform words. -/
theorem E_ksDigit_sq (b l j : Nat) (hv : ValidParams w b l) (hj : j < l) :
    (uniform (BitVec w)).E (fun a => ((ksDigit b l a j).toInt : ℚ) ^ 2) = meanSq (2 ^ b) j := by
  have hbw : b < w := by
    have h1 := hv.fits
    have h2 := Nat.le_mul_of_pos_right b hv.level
    omega
  have hw : 2 ^ w = 2 ^ (w - b * l) * 2 ^ (b * l) := by
    rw [← pow_add]; congr 1; have := hv.fits; omega
  have hbl : l * b < w := by rw [Nat.mul_comm]; exact hv.fits
  have hst : ∀ a : BitVec w, (closestRepresentable b l a >>> (w - b * l)).toNat =
      (a.toNat + 2 ^ (w - b * l - 1)) / 2 ^ (w - b * l) % 2 ^ (b * l) := by
    intro a
    rw [BitVec.toNat_ushiftRight, Nat.shiftRight_eq_div_pow, closest_toNat b l a hbl, Nat.mul_comm l b, hw,
      Nat.mul_comm (2 ^ (w - b * l)) (2 ^ (b * l)), Nat.mul_mod_mul_right,
      Nat.mul_div_cancel _ (Nat.two_pow_pos _)]
  have hd : ∀ a : BitVec w, ((ksDigit b l a j).toInt : ℚ) ^ 2 =
      sqDig b j ((a.toNat + 2 ^ (w - b * l - 1)) / 2 ^ (w - b * l) % 2 ^ (b * l)) := by
    intro a
    have hc := (C08_closest_representable b l hv a).1
    have hid := (C08_closest_representable b l hv (closestRepresentable b l a)).2.2.2 hc
    rw [ksDigit, hid, digits_getD b hv.base hbw l j _ hj, hst, sqDig]
    have hbd := digitAt_bounds b hv.base j
      ((a.toNat + 2 ^ (w - b * l - 1)) / 2 ^ (w - b * l) % 2 ^ (b * l))
    have hmono : (2 ^ (b - 1) : Int) < 2 ^ (w - 1) := by
      have := hv.base
      exact_mod_cast Nat.pow_lt_pow_right (by omega) (by omega)
    rw [toInt_cast_of_bounds _ (by linarith) (by linarith) (by omega)]
  rw [E_congr _ hd, E_words (w := w) (fun i => sqDig b j ((i + 2 ^ (w - b * l - 1)) / 2 ^ (w - b * l) %
    2 ^ (b * l))), hw, sum_div _ _ _ (Nat.two_pow_pos _) (Nat.two_pow_pos _)]
  have hsplit : (2 : Nat) ^ (b * l) = (2 ^ b) ^ (j + 1) * (2 ^ b) ^ (l - j - 1) := by
    rw [← pow_add, ← pow_mul]; congr 2; omega
  have hsum : ∑ s ∈ Finset.range (2 ^ (b * l)), sqDig b j s =
      ((2 ^ b) ^ (l - j - 1) : ℚ) * digSum b j := by
    rw [hsplit, Finset.sum_congr rfl (fun s _ => sqDig_mod b hv.base j s)]
    have := sum_mod ((2 ^ b) ^ (j + 1)) ((2 ^ b) ^ (l - j - 1)) 0 (fun s => sqDig b j s)
    simp only [Nat.add_zero] at this
    rw [this, digSum]; push_cast; rfl
  rw [hsum, (digSum_eq b hv.base j).1]
  have h3 : (2 ^ w : ℚ) = 2 ^ (w - b * l) * ((2 ^ b) ^ (j + 1) * (2 ^ b) ^ (l - j - 1)) := by
    have := hw; rw [hsplit] at this; exact_mod_cast this
  rw [h3]
  have h4 : (2 ^ (w - b * l) : ℚ) ≠ 0 := by positivity
  have h5 : (2 ^ b : ℚ) ≠ 0 := by positivity
  push_cast
  field_simp

end Verif.Npe
