import Verif.Float.Lemmas
import Mathlib.Data.Nat.Sqrt
import Mathlib.Data.Real.Sqrt
/-
`f64::sqrt`: the IEEE 754 square root, correctly rounded to nearest, ties to even. Used by
/repo/concrete-core/src/commons/math/random/gaussian.rs and specification/dispersion.rs.
-/
namespace Verif.Float

/-- Exponent of the unit in the last place of the square root of a positive number (never subnormal). -/
def sqrtExp (q : ℚ) : ℤ := Int.log 2 q / 2 - 52

/-- The number with a 53 bit significand that is nearest to the square root of a positive number. -/
def sqrtRnd (q : ℚ) : ℚ :=
  let u := sqrtExp q
  let s := q / (2 ^ u) ^ 2
  let f := Nat.sqrt ⌊s⌋.toNat
  let n := if s < ((f : ℚ) + 1 / 2) ^ 2 then f
    else if ((f : ℚ) + 1 / 2) ^ 2 < s then f + 1
    else if f % 2 = 0 then f else f + 1
  n * 2 ^ u

/-- `f64::sqrt`. -/
def F64.sqrt : F64 → F64
  | fin q => if q < 0 then nan else if q = 0 then fin 0 else fin (sqrtRnd q)
  | pinf => pinf
  | ninf => nan
  | nan => nan

example : (F64.fin 2).sqrt = .fin (6369051672525773 / 2 ^ 52) := by decide +kernel
example : (F64.fin (9 / 2 ^ 100)).sqrt = .fin (3 / 2 ^ 50) := by decide +kernel
example : (F64.fin (-1)).sqrt = .nan := by decide +kernel

/-- The scaled number whose square root is rounded to an integer. -/
theorem sqrt_scale (q : ℚ) (hq : 0 < q) : (2 : ℚ) ^ 104 ≤ q / (2 ^ sqrtExp q) ^ 2 := by
  have hlog : (2 : ℚ) ^ Int.log 2 q ≤ q := by
    have := Int.zpow_log_le_self (R := ℚ) (b := 2) (r := q) (by norm_num) hq
    simpa using this
  have hp := two_zpow_pos (sqrtExp q)
  rw [le_div_iff₀ (by positivity)]
  refine le_trans ?_ hlog
  rw [show (2 : ℚ) ^ 104 = 2 ^ (104 : ℤ) from rfl, ← zpow_natCast ((2 : ℚ) ^ sqrtExp q) 2, ← zpow_mul,
    ← zpow_add₀ (by norm_num)]
  apply zpow_le_zpow_right₀ (by norm_num)
  unfold sqrtExp
  push_cast
  omega

/-- The square root is within half a unit, hence within `2^-53` in relative error. -/
theorem abs_sqrtRnd_sub_le (q : ℚ) (hq : 0 < q) :
    |(sqrtRnd q : ℝ) - √(q : ℝ)| ≤ √(q : ℝ) / 2 ^ 53 := by
  have h1 := sqrt_scale q hq
  unfold sqrtRnd
  generalize sqrtExp q = u at *
  dsimp only
  have hp := two_zpow_pos u
  generalize hs : q / (2 ^ u) ^ 2 = s at *
  have hqs : q = s * (2 ^ u) ^ 2 := by rw [← hs]; field_simp
  have hs0 : (0 : ℚ) < s := lt_of_lt_of_le (by norm_num) h1
  have hroot : √(q : ℝ) = √(s : ℝ) * 2 ^ u := by
    rw [hqs]; push_cast
    rw [Real.sqrt_mul (by exact_mod_cast hs0.le), Real.sqrt_sq (zpow_pos (by norm_num) u).le]
  have hfl : ((⌊s⌋.toNat : ℕ) : ℤ) = ⌊s⌋ := Int.toNat_of_nonneg (Int.floor_nonneg.2 hs0.le)
  have hf1 : ((Nat.sqrt ⌊s⌋.toNat : ℕ) : ℚ) ^ 2 ≤ s := by
    have h := Nat.sqrt_le' ⌊s⌋.toNat
    have h2 : ((⌊s⌋.toNat : ℕ) : ℚ) ≤ s := by
      have : (((⌊s⌋.toNat : ℕ) : ℤ) : ℚ) ≤ s := by rw [hfl]; exact Int.floor_le s
      exact_mod_cast this
    refine le_trans ?_ h2
    exact_mod_cast h
  have hf2 : s < ((Nat.sqrt ⌊s⌋.toNat : ℕ) + 1 : ℚ) ^ 2 := by
    have h := Nat.lt_succ_sqrt' ⌊s⌋.toNat
    have h3 : (((⌊s⌋.toNat : ℕ) : ℤ) : ℚ) + 1 ≤ ((Nat.sqrt ⌊s⌋.toNat : ℕ) + 1 : ℚ) ^ 2 := by
      exact_mod_cast h
    have h4 := Int.lt_floor_add_one s
    rw [hfl] at h3
    linarith
  generalize Nat.sqrt ⌊s⌋.toNat = f at *
  have r1 : (f : ℝ) ≤ √(s : ℝ) := Real.le_sqrt_of_sq_le (by exact_mod_cast hf1)
  have r2 : √(s : ℝ) < f + 1 := by
    rw [Real.sqrt_lt' (by positivity)]; exact_mod_cast hf2
  have r3 : (2 : ℝ) ^ 52 ≤ √(s : ℝ) := by
    apply Real.le_sqrt_of_sq_le
    have : ((2 : ℚ) ^ 104 : ℝ) ≤ (s : ℝ) := by exact_mod_cast h1
    refine le_trans (le_of_eq ?_) this
    norm_num
  have key : ∀ n : ℕ, |(n : ℝ) - √(s : ℝ)| ≤ 1 / 2 →
      |(((n : ℚ) * 2 ^ u : ℚ) : ℝ) - √(q : ℝ)| ≤ √(q : ℝ) / 2 ^ 53 := by
    intro n hn
    rw [hroot]; push_cast
    have hpr : (0 : ℝ) < 2 ^ u := zpow_pos (by norm_num) u
    rw [← sub_mul, abs_mul, abs_of_pos hpr]
    calc |(n : ℝ) - √(s : ℝ)| * 2 ^ u ≤ 1 / 2 * 2 ^ u := mul_le_mul_of_nonneg_right hn hpr.le
      _ ≤ (√(s : ℝ) / 2 ^ 53) * 2 ^ u := by
          apply mul_le_mul_of_nonneg_right _ hpr.le
          rw [le_div_iff₀ (by positivity)]
          refine le_trans (le_of_eq ?_) r3
          norm_num
      _ = √(s : ℝ) * 2 ^ u / 2 ^ 53 := by ring
  apply key
  split_ifs with c1 c2 c3
  · have : √(s : ℝ) < f + 1 / 2 := by
      rw [Real.sqrt_lt' (by positivity)]
      have := (Rat.cast_lt (K := ℝ)).2 c1
      push_cast at this; exact this
    rw [abs_le]; constructor <;> linarith
  · have : (f : ℝ) + 1 / 2 ≤ √(s : ℝ) := by
      apply Real.le_sqrt_of_sq_le
      have := (Rat.cast_lt (K := ℝ)).2 c2
      push_cast at this; exact this.le
    push_cast; rw [abs_le]; constructor <;> linarith
  · have e : (s : ℝ) = ((f : ℝ) + 1 / 2) ^ 2 := by
      have := congrArg (Rat.cast (K := ℝ)) (le_antisymm (not_lt.1 c2) (not_lt.1 c1))
      push_cast at this; exact this
    rw [e, Real.sqrt_sq (by positivity), abs_le]; constructor <;> linarith
  · have e : (s : ℝ) = ((f : ℝ) + 1 / 2) ^ 2 := by
      have := congrArg (Rat.cast (K := ℝ)) (le_antisymm (not_lt.1 c2) (not_lt.1 c1))
      push_cast at this; exact this
    rw [e, Real.sqrt_sq (by positivity)]; push_cast; rw [abs_le]; constructor <;> linarith

theorem sqrtRnd_nonneg (q : ℚ) : 0 ≤ sqrtRnd q := by
  unfold sqrtRnd
  dsimp only
  exact mul_nonneg (Nat.cast_nonneg _) (two_zpow_pos _).le

end Verif.Float
