import Mathlib.Data.Int.Log
import Mathlib.Data.Rat.Floor
import Mathlib.Algebra.Order.Field.Rat
import Mathlib.Tactic.Linarith
import Mathlib.Tactic.Ring
import Mathlib.Tactic.FieldSimp
import Mathlib.Tactic.Positivity
import Mathlib.Tactic.NormNum
/-
IEEE 754 binary64, as used through Rust's `f64` by
/repo/concrete-core/src/commons/numeric/float.rs, commons/math/torus/mod.rs and
commons/crypto/encoding/encoder.rs.

A finite value is the rational number it denotes. Every arithmetic operation is the exact operation
followed by rounding to nearest, ties to even, with a 53 bit significand, gradual underflow below
`2^-1022` and overflow to an infinity at `2^1024`. Simplification: the two zeros are one value (the
modelled code never divides by a zero and never inspects a sign bit).
-/
namespace Verif.Float

/-- An `f64`: a finite number, an infinity or a NaN. -/
inductive F64 where
  | fin (q : ℚ)
  | pinf
  | ninf
  | nan
  deriving DecidableEq

/-- Nearest integer, ties to the even one. -/
def rne (q : ℚ) : ℤ :=
  let f := ⌊q⌋
  let r := q - f
  if r < 1 / 2 then f
  else if 1 / 2 < r then f + 1
  else if f % 2 = 0 then f else f + 1

/-- Exponent of the unit in the last place of the binade of `q`: 52 below its leading bit, and at
least `-1074` (subnormal numbers). -/
def ulpExp (q : ℚ) : ℤ := max (Int.log 2 |q| - 52) (-1074)

/-- Nearest number with a 53 bit significand, ties to even, the exponent range being unbounded
above. -/
def rnd (q : ℚ) : ℚ := rne (q / 2 ^ ulpExp q) * 2 ^ ulpExp q

/-- The `f64` an exact result is rounded to. -/
def ofRat (q : ℚ) : F64 :=
  let r := rnd q
  if (2 : ℚ) ^ (1024 : ℤ) ≤ r then .pinf
  else if r ≤ -(2 : ℚ) ^ (1024 : ℤ) then .ninf
  else .fin r

namespace F64

/-- Unary minus. -/
def neg : F64 → F64
  | fin q => fin (-q)
  | pinf => ninf
  | ninf => pinf
  | nan => nan

/-- `a + b`. -/
def add : F64 → F64 → F64
  | fin a, fin b => ofRat (a + b)
  | nan, _ => nan
  | _, nan => nan
  | pinf, ninf => nan
  | ninf, pinf => nan
  | pinf, _ => pinf
  | _, pinf => pinf
  | ninf, _ => ninf
  | _, ninf => ninf

/-- `a - b`. -/
def sub (a b : F64) : F64 := a.add b.neg

/-- Product of an infinity of sign `s` (`true`: negative) by a finite number. -/
def infMul (s : Bool) (q : ℚ) : F64 :=
  if q = 0 then nan else if (decide (q < 0)) ^^ s then ninf else pinf

/-- `a * b`. -/
def mul : F64 → F64 → F64
  | fin a, fin b => ofRat (a * b)
  | nan, _ => nan
  | _, nan => nan
  | pinf, fin b => infMul false b
  | ninf, fin b => infMul true b
  | fin a, pinf => infMul false a
  | fin a, ninf => infMul true a
  | pinf, pinf => pinf
  | ninf, ninf => pinf
  | _, _ => ninf

/-- `a / b`; a finite number divided by zero is an infinity of the sign of the dividend (positive
zero). -/
def div : F64 → F64 → F64
  | fin a, fin b =>
    if b = 0 then (if a = 0 then nan else if a < 0 then ninf else pinf) else ofRat (a / b)
  | nan, _ => nan
  | _, nan => nan
  | fin _, _ => fin 0
  | pinf, fin b => if b < 0 then ninf else pinf
  | ninf, fin b => if b < 0 then pinf else ninf
  | _, _ => nan

/-- `a < b`; false when an operand is a NaN. -/
def lt : F64 → F64 → Bool
  | fin a, fin b => decide (a < b)
  | nan, _ => false
  | _, nan => false
  | _, ninf => false
  | pinf, _ => false
  | ninf, _ => true
  | fin _, pinf => true

/-- `a <= b`; false when an operand is a NaN. -/
def le : F64 → F64 → Bool
  | fin a, fin b => decide (a ≤ b)
  | nan, _ => false
  | _, nan => false
  | ninf, _ => true
  | _, pinf => true
  | _, _ => false

/-- `f64::round`: nearest integer, ties away from zero. -/
def round : F64 → F64
  | fin q => if 0 ≤ q then fin ⌊q + 1 / 2⌋ else fin ⌈q - 1 / 2⌉
  | x => x

/-- `f64::powi(2., n)`. Exact for `-1022 ≤ n ≤ 1023`, the only exponents for which the model is used
by a theorem. -/
def powi2 (n : ℤ) : F64 := ofRat (2 ^ n)

/-- `x as iN` (`N = w`): truncation toward zero, saturating at the bounds; a NaN becomes `0`. -/
def toSigned (w : Nat) : F64 → ℤ
  | fin q =>
    let t := if 0 ≤ q then ⌊q⌋ else ⌈q⌉
    if (2 : ℤ) ^ (w - 1) ≤ t then 2 ^ (w - 1) - 1
    else if t < -(2 : ℤ) ^ (w - 1) then -2 ^ (w - 1)
    else t
  | pinf => 2 ^ (w - 1) - 1
  | ninf => -2 ^ (w - 1)
  | nan => 0

/-- `n as f64` for an unsigned integer. -/
def ofNat (n : Nat) : F64 := ofRat n

end F64

example : rnd (1 / 10) = 3602879701896397 / 36028797018963968 := by decide +kernel
example : rnd (2 ^ 53 + 1) = 2 ^ 53 := by decide +kernel
example : rnd (2 ^ 53 + 3) = 2 ^ 53 + 4 := by decide +kernel
example : ofRat (2 ^ 1024 - 2 ^ 971) = .fin (2 ^ 1024 - 2 ^ 971) := by decide +kernel
example : ofRat (2 ^ 1024 - 2 ^ 970) = .pinf := by decide +kernel
example : (F64.fin 1).div (F64.fin 3) = .fin (6004799503160661 / 18014398509481984) := by
  decide +kernel
example : ofRat (1 / 2 ^ 1075) = .fin 0 ∧ ofRat (3 / 2 ^ 1075) = .fin (1 / 2 ^ 1073) := by
  decide +kernel

/-! ### Error of one rounding -/

theorem abs_rne_sub_le (q : ℚ) : |(rne q : ℚ) - q| ≤ 1 / 2 := by
  have h1 := Int.floor_le q
  have h2 := Int.lt_floor_add_one q
  unfold rne
  dsimp only
  split
  · rw [abs_le]; constructor <;> linarith
  · split
    · push_cast; rw [abs_le]; constructor <;> linarith
    · split
      · rw [abs_le]; constructor <;> linarith
      · push_cast; rw [abs_le]; constructor <;> linarith

theorem rne_intCast (n : ℤ) : rne n = n := by
  unfold rne
  dsimp only
  rw [Int.floor_intCast, sub_self, if_pos (by norm_num)]

theorem two_zpow_pos (n : ℤ) : (0 : ℚ) < 2 ^ n := zpow_pos (by norm_num) n

theorem abs_rnd_sub_le_ulp (q : ℚ) : |rnd q - q| ≤ 2 ^ ulpExp q / 2 := by
  unfold rnd
  generalize ulpExp q = e
  have hp := two_zpow_pos e
  have h := abs_rne_sub_le (q / 2 ^ e)
  have : (rne (q / 2 ^ e) : ℚ) * 2 ^ e - q = ((rne (q / 2 ^ e) : ℚ) - q / 2 ^ e) * 2 ^ e := by
    field_simp
  rw [this, abs_mul, abs_of_pos hp]
  calc |(rne (q / 2 ^ e) : ℚ) - q / 2 ^ e| * 2 ^ e ≤ 1 / 2 * 2 ^ e :=
        mul_le_mul_of_nonneg_right h hp.le
    _ = 2 ^ e / 2 := by ring

set_option exponentiation.threshold 2000 in
/-- One rounding: relative error `2^-53` and absolute error `2^-1075`. -/
theorem abs_rnd_sub_le (q : ℚ) : |rnd q - q| ≤ |q| / 2 ^ 53 + 1 / 2 ^ 1075 := by
  have h := abs_rnd_sub_le_ulp q
  have hpos : (0 : ℚ) ≤ 1 / 2 ^ 1075 := by positivity
  by_cases hq : q = 0
  · subst hq
    have : ulpExp 0 = -52 := by unfold ulpExp; simp
    have h0 : rnd 0 = 0 := by
      unfold rnd; rw [zero_div]
      have := rne_intCast 0
      simp only [Int.cast_zero] at this
      rw [this]; simp
    rw [h0]; simp
  · have hq' : 0 < |q| := abs_pos.2 hq
    have hlog : (2 : ℚ) ^ Int.log 2 |q| ≤ |q| := by
      have := Int.zpow_log_le_self (R := ℚ) (b := 2) (r := |q|) (by norm_num) hq'
      simpa using this
    have key : (2 : ℚ) ^ ulpExp q / 2 ≤ |q| / 2 ^ 53 + 1 / 2 ^ 1075 := by
      unfold ulpExp
      rcases le_total (Int.log 2 |q| - 52) (-1074) with hm | hm
      · rw [max_eq_right hm]
        have e : (2 : ℚ) ^ (-1074 : ℤ) / 2 = 1 / 2 ^ 1075 := by
          rw [zpow_neg, show (1074 : ℤ) = ((1074 : ℕ) : ℤ) from rfl, zpow_natCast]
          rw [pow_succ (2 : ℚ) 1074]
          generalize (2 : ℚ) ^ 1074 = A
          rw [mul_comm, one_div, mul_inv, div_eq_inv_mul]
        rw [e]
        have : 0 ≤ |q| / 2 ^ 53 := by positivity
        linarith
      · rw [max_eq_left hm]
        have e : (2 : ℚ) ^ (Int.log 2 |q| - 52) / 2 = 2 ^ Int.log 2 |q| / 2 ^ 53 := by
          rw [zpow_sub₀ (by norm_num : (2 : ℚ) ≠ 0)]
          rw [show (52 : ℤ) = ((52 : ℕ) : ℤ) from rfl, zpow_natCast, div_div, ← pow_succ]
        rw [e]
        have : (2 : ℚ) ^ Int.log 2 |q| / 2 ^ 53 ≤ |q| / 2 ^ 53 :=
          div_le_div_of_nonneg_right hlog (by positivity)
        linarith
    exact h.trans key

/-- Numbers with a 53 bit significand are unchanged. -/
theorem rnd_exact (k e : ℤ) (hk : |k| < 2 ^ 53) (he : -1074 ≤ e) :
    rnd ((k : ℚ) * 2 ^ e) = (k : ℚ) * 2 ^ e := by
  by_cases hk0 : k = 0
  · subst hk0
    unfold rnd
    rw [Int.cast_zero, zero_mul, zero_div]
    have := rne_intCast 0
    simp only [Int.cast_zero] at this
    rw [this]; simp
  have hkpos : (0 : ℚ) < |(k : ℚ)| := abs_pos.2 (by exact_mod_cast hk0)
  have hqpos : (0 : ℚ) < |(k : ℚ) * 2 ^ e| := by
    rw [abs_mul, abs_of_pos (two_zpow_pos e)]; exact mul_pos hkpos (two_zpow_pos e)
  have hle : ulpExp ((k : ℚ) * 2 ^ e) ≤ e := by
    unfold ulpExp
    apply max_le _ he
    have : Int.log 2 |(k : ℚ) * 2 ^ e| < 53 + e := by
      rw [← Int.lt_zpow_iff_log_lt (R := ℚ) (b := 2) (by norm_num) hqpos]
      rw [abs_mul, abs_of_pos (two_zpow_pos e)]
      rw [zpow_add₀ (by norm_num)]
      push_cast
      apply mul_lt_mul_of_pos_right _ (two_zpow_pos e)
      exact_mod_cast hk
    omega
  unfold rnd
  generalize hu : ulpExp ((k : ℚ) * 2 ^ e) = u at hle
  obtain ⟨n, hn⟩ : ∃ n : ℕ, e = u + n := ⟨(e - u).toNat, by omega⟩
  have hdiv : (k : ℚ) * 2 ^ e / 2 ^ u = ((k * 2 ^ n : ℤ) : ℚ) := by
    rw [hn, zpow_add₀ (by norm_num), zpow_natCast]
    push_cast
    field_simp
  rw [hdiv, rne_intCast, ← hdiv]
  have := (two_zpow_pos u).ne'
  field_simp

/-- Integers below `2^53` in absolute value are unchanged. -/
theorem rnd_int (k : ℤ) (hk : |k| < 2 ^ 53) : rnd k = k := by
  have := rnd_exact k 0 hk (by norm_num)
  simpa using this

/-- A result of absolute value at most `2^1022` does not overflow. -/
theorem ofRat_fin (q : ℚ) (h : |q| ≤ 2 ^ 1022) : ofRat q = .fin (rnd q) := by
  have h1 := abs_rnd_sub_le q
  have h5 : (2 : ℚ) ^ (1024 : ℤ) = 4 * 2 ^ 1022 := by
    rw [show (1024 : ℤ) = ((1024 : ℕ) : ℤ) from rfl, zpow_natCast, pow_succ', pow_succ',
      ← mul_assoc]
    norm_num only
  have hp : (1 : ℚ) ≤ 2 ^ 1022 := one_le_pow₀ (by norm_num)
  have hq : |q| / 2 ^ 53 ≤ |q| / 2 := div_le_div_of_nonneg_left (abs_nonneg q) (by norm_num)
    (by norm_num)
  have h3 : (1 : ℚ) / 2 ^ 1075 ≤ 1 / 2 :=
    div_le_div_of_nonneg_left (by norm_num) (by norm_num) (le_self_pow₀ (by norm_num) (by norm_num))
  generalize (1 : ℚ) / 2 ^ 1075 = η at *
  unfold ofRat
  dsimp only
  rw [h5]
  clear h5
  generalize (2 : ℚ) ^ 1022 = A at *
  have h4 : |rnd q| ≤ |rnd q - q| + |q| := by
    have := abs_add_le (rnd q - q) q
    simpa using this
  have h2 : |rnd q| ≤ 2 * A + 1 / 2 := by linarith
  obtain ⟨h6, h7⟩ := abs_le.1 h2
  rw [if_neg (by linarith), if_neg (by linarith)]

end Verif.Float
