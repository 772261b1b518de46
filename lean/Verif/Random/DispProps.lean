import Verif.Random.Disp
import Verif.Float.SqrtSq
import Mathlib.Analysis.SpecialFunctions.Pow.Real
/-
C94: the three ways to give the noise of an encryption agree.
-/
namespace Verif.Random.Disp
open Verif.Float

/-! ### Specification -/

/-- Exact powers of two: `powf(2, n)` and `log2(2^n)` are exact for integers `n`. -/
def Libm.Exact (m : Libm) : Prop :=
  ∀ n : ℤ, -1022 ≤ n → n ≤ 1023 → m.pow2 (.fin n) = .fin (2 ^ n) ∧ m.log2 (.fin (2 ^ n)) = .fin n

/-- `powf(2, x)` has a relative error of at most `2^-50`. -/
def Libm.Accurate (m : Libm) : Prop :=
  ∀ q : ℚ, Rep q → |q| ≤ 1000 → ∃ p : ℚ, m.pow2 (.fin q) = .fin p ∧ |(p : ℝ) - 2 ^ (q : ℝ)| ≤ 2 ^ (q : ℝ) / 2 ^ 50

/-! ### Powers of two -/

theorem pow_le_big {n : ℤ} (h : n ≤ 1022) : |(2 : ℚ) ^ n| ≤ 2 ^ 1022 := by
  rw [abs_of_pos (two_zpow_pos n), ← zpow_natCast]
  exact zpow_le_zpow_right₀ (by norm_num) (by exact_mod_cast h)

theorem int_le_big {n : ℤ} (h : |n| ≤ 2 ^ 53) : |(n : ℚ)| ≤ 2 ^ 1022 := by
  have : |(n : ℚ)| ≤ 2 ^ 53 := by exact_mod_cast h
  exact this.trans (pow_le_pow_right₀ (by norm_num) (by norm_num))

theorem ofRat_int {n : ℤ} (h : |n| ≤ 2 ^ 53) : ofRat (n : ℚ) = .fin n := ofRat_rep (rep_int n h) (int_le_big h)

theorem ofNat_eq {k : ℕ} (h : k ≤ 2 ^ 53) : F64.ofNat k = .fin ((k : ℤ) : ℚ) := by
  have := ofRat_int (n := (k : ℤ)) (by rw [Nat.abs_cast]; exact_mod_cast h)
  rw [F64.ofNat, ← this, Int.cast_natCast]

theorem add_int {a b : ℤ} (h : |a + b| ≤ 2 ^ 53) : (F64.fin a).add (.fin b) = .fin ((a + b : ℤ) : ℚ) := by
  rw [F64.add, ← Int.cast_add]; exact ofRat_int h

theorem mul_int {a b : ℤ} (h : |a * b| ≤ 2 ^ 53) : (F64.fin a).mul (.fin b) = .fin ((a * b : ℤ) : ℚ) := by
  rw [F64.mul, ← Int.cast_mul]; exact ofRat_int h

theorem sqrt_pow {n : ℤ} (h : -500 ≤ n) : (F64.fin (2 ^ (2 * n))).sqrt = .fin (2 ^ n) := by
  have hp := two_zpow_pos (2 * n)
  have h1 : (2 : ℚ) ^ n * 2 ^ n = 2 ^ (2 * n) := by rw [← zpow_add₀ (by norm_num)]; congr 1; ring
  have h2 := sqrtRnd_sq (rep_pow n (by omega)) (zpow_le_zpow_right₀ (by norm_num) h)
  rw [h1, (rep_pow (2 * n) (by omega)).rnd_eq] at h2
  rw [F64.sqrt, if_neg (not_lt.2 hp.le), if_neg hp.ne', h2]

theorem sq_pow {n : ℤ} (h : -500 ≤ n) (h2 : n ≤ 500) : (F64.fin (2 ^ n)).mul (.fin (2 ^ n)) = .fin (2 ^ (2 * n)) := by
  have h1 : (2 : ℚ) ^ n * 2 ^ n = 2 ^ (2 * n) := by rw [← zpow_add₀ (by norm_num)]; congr 1; ring
  rw [F64.mul, h1]
  exact ofRat_rep (rep_pow _ (by omega)) (pow_le_big (by omega))

/-! ### Properties -/

/-- C94: the noise `2^n` given in any of the three ways has the same standard deviation, variance and logarithm, in the
torus and for integers modulo `2^k`. -/
theorem C94_powers (m : Libm) (hm : m.Exact) (n : ℤ) (h1 : -500 ≤ n) (h2 : n ≤ 400) (k : ℕ) (hk : k ≤ 100) (d : Noise)
    (hd : d = .logStd (.fin n) ∨ d = .std (.fin (2 ^ n)) ∨ d = .var (.fin (2 ^ (2 * n)))) :
    d.getStd m = .fin (2 ^ n) ∧ d.getVar m = .fin (2 ^ (2 * n)) ∧ d.getLog m = .fin n ∧
    d.getModStd m k = .fin (2 ^ ((k : ℤ) + n)) ∧ d.getModVar m k = .fin (2 ^ (2 * ((k : ℤ) + n))) ∧
    d.getModLog m k = .fin (((k : ℤ) + n : ℤ) : ℚ) := by
  have e1 : F64.ofNat k = .fin ((k : ℤ) : ℚ) := ofNat_eq (by omega)
  have e2 : (F64.fin ((k : ℤ) : ℚ)).add (.fin (n : ℚ)) = .fin (((k : ℤ) + n : ℤ) : ℚ) := add_int (by rw [abs_le]; omega)
  have e3 : (F64.fin ((n : ℤ) : ℚ)).mul (.fin 2) = .fin ((2 * n : ℤ) : ℚ) := by
    have := mul_int (a := n) (b := 2) (by rw [abs_le]; omega)
    rw [mul_comm n 2] at this
    exact this
  have e4 : (F64.fin (((k : ℤ) + n : ℤ) : ℚ)).mul (.fin 2) = .fin ((2 * ((k : ℤ) + n) : ℤ) : ℚ) := by
    have := mul_int (a := (k : ℤ) + n) (b := 2) (by rw [abs_le]; omega)
    rw [mul_comm ((k : ℤ) + n) 2] at this
    exact this
  have e5 : (F64.fin 2).mul (.fin (((k : ℤ) + n : ℤ) : ℚ)) = .fin ((2 * ((k : ℤ) + n) : ℤ) : ℚ) :=
    mul_int (a := 2) (b := (k : ℤ) + n) (by rw [abs_le]; omega)
  have p1 := hm n (by omega) (by omega)
  have p2 := hm (2 * n) (by omega) (by omega)
  have p3 := hm ((k : ℤ) + n) (by omega) (by omega)
  have p4 := hm (2 * ((k : ℤ) + n)) (by omega) (by omega)
  rcases hd with rfl | rfl | rfl
  · simp only [Noise.getStd, Noise.getVar, Noise.getLog, Noise.getModStd, Noise.getModVar, Noise.getModLog, e1, e2, e3, e4,
      p1, p2, p3, p4, and_self]
  · simp only [Noise.getStd, Noise.getVar, Noise.getLog, Noise.getModStd, Noise.getModVar, Noise.getModLog, e1, e2, e5,
      p1, p3, p4, sq_pow h1 (by omega), and_self]
  · simp only [Noise.getStd, Noise.getVar, Noise.getLog, Noise.getModStd, Noise.getModVar, Noise.getModLog, e1, e2, e5,
      p1, p3, p4, sqrt_pow h1, and_self]

/-- C94: a standard deviation that is stored as a variance and read back is unchanged. -/
theorem C94_std_round_trip (m : Libm) (x : ℚ) (hx : Rep x) (h1 : (2 : ℚ) ^ (-500 : ℤ) ≤ x) (h2 : x ≤ 2 ^ (511 : ℤ)) :
    (Noise.var ((Noise.std (.fin x)).getVar m)).getStd m = .fin x := by
  have hx0 : 0 < x := lt_of_lt_of_le (two_zpow_pos _) h1
  have hb : |x * x| ≤ 2 ^ 1022 := by
    rw [abs_of_pos (by positivity), ← zpow_natCast]
    have : (2 : ℚ) ^ ((1022 : ℕ) : ℤ) = 2 ^ (511 : ℤ) * 2 ^ (511 : ℤ) := by
      rw [← zpow_add₀ (by norm_num)]; rfl
    rw [this]
    exact mul_le_mul h2 h2 hx0.le (two_zpow_pos _).le
  have hr : 0 < rnd (x * x) := by
    refine lt_of_lt_of_le (two_zpow_pos (-1000)) (le_rnd_of_rep (rep_pow _ (by norm_num)) ?_)
    have : (2 : ℚ) ^ (-1000 : ℤ) = 2 ^ (-500 : ℤ) * 2 ^ (-500 : ℤ) := by rw [← zpow_add₀ (by norm_num)]; rfl
    rw [this]
    exact mul_le_mul h1 h1 (two_zpow_pos _).le hx0.le
  rw [Noise.getVar, F64.mul, ofRat_fin _ hb, Noise.getStd, F64.sqrt, if_neg (not_lt.2 hr.le), if_neg hr.ne', sqrtRnd_sq hx h1]

/-- C94: a variance that is stored as a standard deviation and read back is in general another number. -/
theorem C94_variance_round_trip_violated (m : Libm) :
    (Noise.std ((Noise.var (.fin 2)).getStd m)).getVar m = .fin (2 + 1 / 2 ^ 51) := by
  show ((F64.fin 2).sqrt).mul ((F64.fin 2).sqrt) = _
  decide +kernel

/-- C94: its relative error is at most `2^-51`. -/
theorem C94_variance_round_trip_partial (m : Libm) (v : ℚ) (h1 : (2 : ℚ) ^ (-1000 : ℤ) ≤ v) (h2 : v ≤ 2 ^ (1000 : ℤ)) :
    ∃ v' : ℚ, (Noise.std ((Noise.var (.fin v)).getStd m)).getVar m = .fin v' ∧ |v' - v| ≤ v / 2 ^ 51 := by
  have hv0 : 0 < v := lt_of_lt_of_le (two_zpow_pos _) h1
  have hs := abs_sqrtRnd_sub_le v hv0
  have hs0 := sqrtRnd_nonneg v
  generalize hsv : sqrtRnd v = s at hs hs0
  have hvr : (0 : ℝ) < v := by exact_mod_cast hv0
  have hroot := Real.sq_sqrt hvr.le
  have hroot0 := Real.sqrt_nonneg (v : ℝ)
  have hsq : |((s * s : ℚ) : ℝ) - v| ≤ v * (2 / 2 ^ 53 + 1 / 2 ^ 106) := by
    generalize √(v : ℝ) = t at *
    rw [← hroot]
    push_cast
    have e : (s : ℝ) * s - t ^ 2 = ((s : ℝ) - t) * (((s : ℝ) - t) + 2 * t) := by ring
    rw [e, abs_mul]
    have h3 : |((s : ℝ) - t) + 2 * t| ≤ t / 2 ^ 53 + 2 * t := by
      refine (abs_add_le _ _).trans (add_le_add hs ?_)
      rw [abs_of_nonneg (by positivity)]
    calc _ ≤ (t / 2 ^ 53) * (t / 2 ^ 53 + 2 * t) := mul_le_mul hs h3 (abs_nonneg _) (by positivity)
      _ = t ^ 2 * (2 / 2 ^ 53 + 1 / 2 ^ 106) := by ring
  have hsq' : |s * s - v| ≤ v * (2 / 2 ^ 53 + 1 / 2 ^ 106) := by
    have := hsq
    rw [← Rat.cast_sub, ← Rat.cast_abs] at this
    have h4 : ((v * (2 / 2 ^ 53 + 1 / 2 ^ 106) : ℚ) : ℝ) = (v : ℝ) * (2 / 2 ^ 53 + 1 / 2 ^ 106) := by push_cast; ring
    rw [← h4] at this
    exact_mod_cast this
  rw [abs_le] at hsq'
  have hlt : s * s ≤ 2 * v := by
    have : v * (2 / 2 ^ 53 + 1 / 2 ^ 106) ≤ v := by
      have : v * (2 / 2 ^ 53 + 1 / 2 ^ 106) ≤ v * 1 := mul_le_mul_of_nonneg_left (by norm_num) hv0.le
      linarith
    linarith [hsq'.2]
  have hss0 : 0 ≤ s * s := mul_nonneg hs0 hs0
  have hb : |s * s| ≤ 2 ^ 1022 := by
    rw [abs_of_nonneg hss0]
    refine hlt.trans ?_
    calc 2 * v ≤ 2 * 2 ^ (1000 : ℤ) := by linarith
      _ = 2 ^ (1001 : ℤ) := by rw [show (1001 : ℤ) = 1 + 1000 by norm_num, zpow_add₀ (by norm_num)]; norm_num
      _ ≤ 2 ^ ((1022 : ℕ) : ℤ) := zpow_le_zpow_right₀ (by norm_num) (by norm_num)
      _ = 2 ^ 1022 := zpow_natCast 2 1022
  have hr := abs_rnd_sub_le (s * s)
  rw [abs_of_nonneg hss0] at hr
  have htiny : (1 : ℚ) / 2 ^ 1075 ≤ v / 2 ^ 75 := by
    have : (1 : ℚ) / 2 ^ 1075 = 2 ^ (-1000 : ℤ) / 2 ^ 75 := by
      rw [show (-1000 : ℤ) = -((1000 : ℕ) : ℤ) from rfl, zpow_neg, zpow_natCast, show (1075 : ℕ) = 1000 + 75 from rfl,
        pow_add (2 : ℚ) 1000 75, one_div, mul_inv, div_eq_mul_inv]
    rw [this]
    exact div_le_div_of_nonneg_right h1 (by norm_num)
  refine ⟨rnd (s * s), ?_, ?_⟩
  · show ((F64.fin v).sqrt).mul ((F64.fin v).sqrt) = _
    rw [F64.sqrt, if_neg (not_lt.2 hv0.le), if_neg hv0.ne', hsv, F64.mul, ofRat_fin _ hb]
  · generalize rnd (s * s) = r at *
    generalize (1 : ℚ) / 2 ^ 1075 = t at *
    rw [abs_le] at hr ⊢
    norm_num at hr hsq' htiny hlt ⊢
    constructor <;> linarith [hr.1, hr.2, hsq'.1, hsq'.2]

/-- C94: a noise given by its logarithm, which need not be an integer. -/
theorem C94_log (m : Libm) (hm : m.Accurate) (p : ℚ) (hp : Rep p) (h : |p| ≤ 500) :
    ∃ s v : ℚ, (Noise.logStd (.fin p)).getStd m = .fin s ∧ (Noise.logStd (.fin p)).getVar m = .fin v ∧
      |(s : ℝ) - 2 ^ (p : ℝ)| ≤ 2 ^ (p : ℝ) / 2 ^ 50 ∧
      |(v : ℝ) - (2 ^ (p : ℝ)) ^ 2| ≤ (2 ^ (p : ℝ)) ^ 2 / 2 ^ 50 := by
  obtain ⟨s, hs, hs2⟩ := hm p hp (by linarith)
  have h2 : Rep (p * 2) := by
    have := hp.mul_pow 1
    norm_num at this
    exact this
  have hb : |p * 2| ≤ 1000 := by rw [abs_mul]; norm_num; linarith
  obtain ⟨v, hv, hv2⟩ := hm (p * 2) h2 hb
  have he : (2 : ℝ) ^ (((p * 2 : ℚ)) : ℝ) = (2 ^ (p : ℝ)) ^ 2 := by
    push_cast
    rw [Real.rpow_mul (by norm_num), Real.rpow_ofNat]
  rw [he] at hv2
  refine ⟨s, v, hs, ?_, hs2, hv2⟩
  have : (F64.fin p).mul (.fin 2) = .fin (p * 2) := by
    rw [F64.mul]
    refine ofRat_rep h2 (hb.trans ?_)
    calc (1000 : ℚ) ≤ 2 ^ 10 := by norm_num
      _ ≤ 2 ^ 1022 := pow_le_pow_right₀ (by norm_num) (by norm_num)
  rw [Noise.getVar, this, hv]

theorem div_pow {x : ℚ} (hx : Rep x) (k : ℕ) (h1 : (2 : ℚ) ^ ((k : ℤ) - 1022) ≤ x) (h2 : x ≤ 2 ^ 1022) :
    (F64.fin x).div (.fin (2 ^ (k : ℤ))) = .fin (x / 2 ^ k) := by
  have hp := two_zpow_pos (k : ℤ)
  rw [F64.div, if_neg hp.ne']
  have hx0 : 0 < x := lt_of_lt_of_le (two_zpow_pos _) h1
  have hk1 : (1 : ℚ) ≤ 2 ^ k := one_le_pow₀ (by norm_num)
  rw [zpow_natCast]
  apply ofRat_rep
  · obtain ⟨c, e, hc, c1, c2, he⟩ := hx.normal (le_trans (zpow_le_zpow_right₀ (by norm_num) (by omega)) h1)
    refine ⟨c, e - k, ?_, ?_, ?_⟩
    · rw [Nat.abs_cast]; exact_mod_cast c2.le
    · have hlog : (k : ℤ) - 1022 ≤ Int.log 2 x :=
        (Int.zpow_le_iff_le_log (R := ℚ) (b := 2) (by norm_num) hx0).1 (by push_cast; exact h1)
      rw [ulpExp, abs_of_pos hx0] at he
      have := le_max_left (Int.log 2 x - 52) (-1074)
      omega
    · rw [hc, zpow_sub₀ (by norm_num), zpow_natCast]
      push_cast
      ring
  · rw [abs_of_pos (by positivity)]
    exact (div_le_self hx0.le hk1).trans h2

/-- C94: noise given for integers modulo `2^k` is divided by `2^k`, its variance by `2^2k`, exactly; the logarithm, if it is
an integer, is decreased by `k`. -/
theorem C94_from_modular (m : Libm) (hm : m.Exact) (k : ℕ) (hk : k ≤ 100) (x : ℚ) (hx : Rep x)
    (h1 : (2 : ℚ) ^ (-800 : ℤ) ≤ x) (h2 : x ≤ 2 ^ 1022) (n : ℤ) (hn : |n| ≤ 2 ^ 50) :
    (fromModStd m (.fin x) k).getStd m = .fin (x / 2 ^ k) ∧ (fromModVar m (.fin x) k).getVar m = .fin (x / (2 ^ k) ^ 2) ∧
    (fromModLog (.fin n) k).getLog m = .fin ((n - k : ℤ) : ℚ) := by
  have e1 : F64.ofNat k = .fin ((k : ℤ) : ℚ) := ofNat_eq (by omega)
  have e2 : (F64.fin ((k : ℤ) : ℚ)).mul (.fin 2) = .fin ((((2 * k : ℕ) : ℤ)) : ℚ) := by
    have := mul_int (a := k) (b := 2) (by rw [abs_le]; omega)
    rw [mul_comm (k : ℤ) 2] at this
    exact_mod_cast this
  refine ⟨?_, ?_, ?_⟩
  · show (F64.fin x).div (m.pow2 (F64.ofNat k)) = _
    rw [e1, (hm k (by omega) (by omega)).1]
    exact div_pow hx k (le_trans (zpow_le_zpow_right₀ (by norm_num) (by omega)) h1) h2
  · show (F64.fin x).div (m.pow2 ((F64.ofNat k).mul (.fin 2))) = _
    rw [e1, e2, (hm ((2 * k : ℕ) : ℤ) (by omega) (by omega)).1,
      div_pow hx (2 * k) (le_trans (zpow_le_zpow_right₀ (by norm_num) (by omega)) h1) h2, ← pow_mul, mul_comm k 2]
  · show (F64.fin (n : ℚ)).add (F64.neg (F64.ofNat k)) = _
    rw [e1, F64.neg, ← Int.cast_neg]
    have := add_int (a := n) (b := -(k : ℤ)) (by rw [abs_le] at hn ⊢; omega)
    rw [this]
    rfl

/-- C94: a power of two given for integers modulo `2^k` is read back unchanged, in the three ways. -/
theorem C94_modular_round_trip (m : Libm) (hm : m.Exact) (k : ℕ) (hk : k ≤ 100) (n : ℤ) (h1 : -300 ≤ n) (h2 : n ≤ 400) :
    (fromModStd m (.fin (2 ^ n)) k).getModStd m k = .fin (2 ^ n) ∧
    (fromModVar m (.fin (2 ^ (2 * n))) k).getModVar m k = .fin (2 ^ (2 * n)) ∧
    (fromModLog (.fin n) k).getModLog m k = .fin n := by
  have a := (C94_from_modular m hm k hk (2 ^ n) (rep_pow n (by omega)) (zpow_le_zpow_right₀ (by norm_num) (by omega))
    (by have := pow_le_big (n := n) (by omega); rwa [abs_of_pos (two_zpow_pos n)] at this) n (by rw [abs_le]; omega))
  have b := (C94_from_modular m hm k hk (2 ^ (2 * n)) (rep_pow _ (by omega)) (zpow_le_zpow_right₀ (by norm_num) (by omega))
    (by have := pow_le_big (n := 2 * n) (by omega); rwa [abs_of_pos (two_zpow_pos _)] at this) n (by rw [abs_le]; omega)).2.1
  have e1 : (2 : ℚ) ^ n / 2 ^ k = 2 ^ (n - k) := by rw [zpow_sub₀ (by norm_num), zpow_natCast]
  have e2 : (2 : ℚ) ^ (2 * n) / (2 ^ k) ^ 2 = 2 ^ (2 * (n - k)) := by
    rw [mul_sub, zpow_sub₀ (by norm_num), ← pow_mul, ← zpow_natCast]
    congr 2
    push_cast
    ring
  rw [e1] at a
  rw [e2] at b
  have p := C94_powers m hm (n - k) (by omega) (by omega) k hk
  have e3 : (k : ℤ) + (n - k) = n := by ring
  rw [e3] at p
  refine ⟨?_, ?_, ?_⟩
  · have h := (p _ (.inr (.inl rfl))).2.2.2.1
    have : fromModStd m (.fin (2 ^ n)) k = .std (.fin (2 ^ (n - k))) := congrArg Noise.std a.1
    rw [this]; exact h
  · have h := (p _ (.inr (.inr rfl))).2.2.2.2.1
    have : fromModVar m (.fin (2 ^ (2 * n))) k = .var (.fin (2 ^ (2 * (n - k)))) := congrArg Noise.var b
    rw [this]; exact h
  · have h := (p _ (.inl rfl)).2.2.2.2.2
    have : fromModLog (.fin n) k = .logStd (.fin ((n - k : ℤ) : ℚ)) := congrArg Noise.logStd a.2.2
    rw [this]; exact h

/-- C94: outside of the range, the noise is lost on the way through the variance. -/
theorem C94_range_violated (m : Libm) :
    (Noise.var ((Noise.std (.fin (1 / 2 ^ 540))).getVar m)).getStd m = .fin 0 ∧
    (Noise.var ((Noise.std (.fin (2 ^ 512))).getVar m)).getStd m = .pinf := by
  constructor
  · show ((F64.fin (1 / 2 ^ 540)).mul (F64.fin (1 / 2 ^ 540))).sqrt = _
    decide +kernel
  · show ((F64.fin (2 ^ 512)).mul (F64.fin (2 ^ 512))).sqrt = _
    decide +kernel

/-! ### The hypotheses are met -/

/-- A library that is exact for powers of two. -/
def demoLibm : Libm where
  pow2 x := match x with
    | .fin q => .fin (2 ^ ⌊q⌋)
    | x => x
  log2 x := match x with
    | .fin q => .fin (Int.log 2 q)
    | x => x

theorem demo_exact : demoLibm.Exact := by
  intro n _ _
  refine ⟨?_, ?_⟩
  · show F64.fin (2 ^ ⌊(n : ℚ)⌋) = _
    rw [Int.floor_intCast]
  · show F64.fin (Int.log 2 ((2 : ℚ) ^ n) : ℤ) = _
    rw [log_eq (le_refl _) (zpow_lt_zpow_right₀ (by norm_num) (by omega))]

example : (fromModStd demoLibm (.fin (2 ^ (15 : ℤ))) 32).getModStd demoLibm 32 = .fin (2 ^ (15 : ℤ)) :=
  (C94_modular_round_trip demoLibm demo_exact 32 (by norm_num) 15 (by norm_num) (by norm_num)).1

example (m : Libm) : (Noise.var ((Noise.std (.fin (3 / 2 ^ 20))).getVar m)).getStd m = .fin (3 / 2 ^ 20) :=
  C94_std_round_trip m _ ⟨3, -20, by norm_num, by norm_num, by norm_num⟩
    (le_trans (zpow_le_zpow_right₀ (by norm_num) (show (-500 : ℤ) ≤ -20 by norm_num)) (by norm_num))
    (le_trans (by norm_num) (zpow_le_zpow_right₀ (by norm_num) (show (0 : ℤ) ≤ 511 by norm_num)))

theorem exists_accurate : ∃ m : Libm, m.Accurate := by
  have : ∀ q : ℚ, ∃ p : ℚ, |(p : ℝ) - 2 ^ (q : ℝ)| ≤ 2 ^ (q : ℝ) / 2 ^ 50 := by
    intro q
    have hp : (0 : ℝ) < 2 ^ (q : ℝ) := Real.rpow_pos_of_pos (by norm_num) _
    have hp2 : (0 : ℝ) < 2 ^ (q : ℝ) / 2 ^ 50 := by positivity
    obtain ⟨p, h1, h2⟩ := exists_rat_btwn (show (2 : ℝ) ^ (q : ℝ) < 2 ^ (q : ℝ) + 2 ^ (q : ℝ) / 2 ^ 50 by linarith)
    exact ⟨p, by rw [abs_of_pos (by linarith)]; linarith⟩
  choose f hf using this
  exact ⟨⟨fun x => match x with | .fin q => .fin (f q) | x => x, id⟩, fun q _ _ => ⟨f q, rfl, hf q⟩⟩

example : ∃ m : Libm, ∃ s : ℚ, (Noise.logStd (.fin (-51 / 2))).getStd m = .fin s ∧
    |(s : ℝ) - 2 ^ (((-51 / 2 : ℚ)) : ℝ)| ≤ 2 ^ (((-51 / 2 : ℚ)) : ℝ) / 2 ^ 50 := by
  obtain ⟨m, hm⟩ := exists_accurate
  obtain ⟨s, _, h, _, h2, _⟩ := C94_log m hm (-51 / 2) ⟨-51, -1, by norm_num, by norm_num, by norm_num⟩
    (by rw [abs_le]; norm_num)
  exact ⟨m, s, h, h2⟩

end Verif.Random.Disp
