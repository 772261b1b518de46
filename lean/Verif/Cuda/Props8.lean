import Verif.Cuda.Switch
import Verif.Cuda.PbsMemory
import Verif.Float.Lemmas
import Verif.Pbs.Props2
import Mathlib.Tactic.IntervalCases
/-
C78: the exponents by which the CUDA bootstraps rotate the accumulator are the nearest integers to `x 2N / 2^w`
(`Pbs.nearestDegree`, the specification of C29), as on the CPU.
-/
namespace Verif.Cuda
open Verif.Float Verif.Pbs

/-- Rounding of a quotient of natural numbers to the nearest integer, ties up. -/
theorem floor_half (a b : Nat) (hb : 0 < b) : ⌊((a : ℚ) / b) + 1 / 2⌋ = (((2 * a + b) / (2 * b) : Nat) : ℤ) := by
  have hb' : (0 : ℚ) < b := by exact_mod_cast hb
  rw [Int.floor_eq_iff]
  have h := Nat.div_add_mod (2 * a + b) (2 * b)
  have hm := Nat.mod_lt (2 * a + b) (show 0 < 2 * b by omega)
  generalize (2 * a + b) / (2 * b) = q at *
  have e : ((a : ℚ) / b) + 1 / 2 = (2 * a + b) / (2 * b) := by field_simp
  rw [e, le_div_iff₀ (by positivity), div_lt_iff₀ (by positivity)]
  constructor
  · have : q * (2 * b) ≤ 2 * a + b := by rw [Nat.mul_comm]; omega
    exact_mod_cast this
  · have : 2 * a + b < (q + 1) * (2 * b) := by rw [Nat.add_mul, Nat.mul_comm q]; omega
    exact_mod_cast this

/-- The significand and the exponent of a rounded natural number. -/
theorem rnd_nat (x : Nat) : ∃ k e : ℤ, |k| ≤ 2 ^ 53 ∧ -52 ≤ e ∧ rnd (x : ℚ) = (k : ℚ) * 2 ^ e := by
  refine ⟨rne ((x : ℚ) / 2 ^ ulpExp x), ulpExp x, ?_, ?_, rfl⟩
  · have h := abs_lt_ulp (x : ℚ)
    generalize ulpExp (x : ℚ) = e at h
    have hp := two_zpow_pos e
    have hx : (0 : ℚ) ≤ (x : ℚ) / 2 ^ e := by positivity
    have h0 : 0 ≤ rne ((x : ℚ) / 2 ^ e) := rne_mono_int 0 _ (by simpa using hx)
    have h1 : -(2 ^ 53) ≤ rne (-((x : ℚ) / 2 ^ e)) := by
      apply rne_mono_int
      rw [abs_of_nonneg (by positivity)] at h
      push_cast
      have : (x : ℚ) / 2 ^ e ≤ 2 ^ 53 := by
        rw [div_le_iff₀ hp]; exact h.le
      linarith
    rw [rne_neg] at h1
    rw [abs_of_nonneg h0]
    omega
  · unfold ulpExp
    apply le_max_of_le_left
    have : 0 ≤ Int.log 2 |(x : ℚ)| := by
      rw [Nat.abs_cast, Int.log_natCast]; positivity
    omega

/-- All the steps but the conversion of the element are exact. -/
theorem rescale_eq (w logN : Nat) (hw : w = 32 ∨ w = 64) (hN : logN + 1 < 32) (x : BitVec w) :
    rescaleTorusElement x (2 * 2 ^ logN) =
      some ⌊rnd (x.toNat : ℚ) * 2 ^ (logN + 1) / 2 ^ w + 1 / 2⌋.toNat := by
  have hx : x.toNat < 2 ^ w := x.isLt
  obtain ⟨k, e, hk, he, hr⟩ := rnd_nat x.toNat
  have hub : rnd (x.toNat : ℚ) ≤ 2 ^ w := by
    refine rnd_le_of_rep ?_ (by exact_mod_cast hx.le)
    have := rep_pow (w : ℤ) (by omega)
    rwa [zpow_natCast] at this
  have hlb : 0 ≤ rnd (x.toNat : ℚ) := rnd_nonneg (by positivity)
  have h64 : (2 : ℚ) ^ w ≤ 2 ^ 1022 := pow_le_1022 w (by omega)
  have hw0 : (0 : ℚ) < 2 ^ w := by positivity
  have hw1 : (1 : ℚ) ≤ 2 ^ w := one_le_pow₀ (by norm_num)
  have e1 : F64.ofNat x.toNat = .fin (rnd (x.toNat : ℚ)) := by
    rw [F64.ofNat, ofRat_fin]
    rw [Nat.abs_cast]
    have : (x.toNat : ℚ) ≤ 2 ^ w := by exact_mod_cast hx.le
    exact this.trans h64
  have e2 : (F64.ofNat (2 ^ w - 1)).add (.fin 1) = .fin (2 ^ w) := by
    rcases hw with rfl | rfl <;> decide +kernel
  have e3 : (F64.fin (rnd (x.toNat : ℚ))).div (.fin (2 ^ w)) = .fin (rnd (x.toNat : ℚ) / 2 ^ w) := by
    rw [F64.div, if_neg hw0.ne']
    apply ofRat_rep
    · refine ⟨k, e - w, hk, by omega, ?_⟩
      rw [hr, zpow_sub₀ (by norm_num), zpow_natCast]; ring
    · rw [abs_of_nonneg (div_nonneg hlb hw0.le), div_le_iff₀ hw0]
      calc rnd (x.toNat : ℚ) ≤ 1 * 2 ^ w := by rw [one_mul]; exact hub
        _ ≤ 2 ^ 1022 * 2 ^ w := mul_le_mul_of_nonneg_right one_le_1022 hw0.le
  have hN2 : (2 * 2 ^ logN : Nat) = 2 ^ (logN + 1) := by rw [pow_succ, Nat.mul_comm]
  have e4 : F64.ofNat (2 * 2 ^ logN) = .fin (2 ^ (logN + 1)) := by
    rw [hN2, F64.ofNat]
    push_cast
    apply ofRat_rep
    · have := rep_pow ((logN + 1 : Nat) : ℤ) (by omega)
      rwa [zpow_natCast] at this
    · rw [abs_of_pos (by positivity)]; exact pow_le_1022 _ (by omega)
  have hprod : rnd (x.toNat : ℚ) / 2 ^ w * 2 ^ (logN + 1) ≤ 2 ^ (logN + 1) := by
    have : rnd (x.toNat : ℚ) / 2 ^ w ≤ 1 := by rw [div_le_one hw0]; exact hub
    calc _ ≤ 1 * (2 : ℚ) ^ (logN + 1) := mul_le_mul_of_nonneg_right this (by positivity)
      _ = _ := one_mul _
  have hprod0 : 0 ≤ rnd (x.toNat : ℚ) / 2 ^ w * 2 ^ (logN + 1) := by positivity
  have e5 : (F64.fin (rnd (x.toNat : ℚ) / 2 ^ w)).mul (.fin (2 ^ (logN + 1))) =
      .fin (rnd (x.toNat : ℚ) / 2 ^ w * 2 ^ (logN + 1)) := by
    rw [F64.mul]
    apply ofRat_rep
    · refine ⟨k, e - w + (logN + 1 : Nat), hk, by omega, ?_⟩
      rw [hr, zpow_add₀ (by norm_num), zpow_sub₀ (by norm_num), zpow_natCast, zpow_natCast]; ring
    · rw [abs_of_nonneg hprod0]
      exact le_trans hprod (pow_le_1022 _ (by omega))
  rw [rescaleTorusElement, e1, e2, e3, e4, e5, F64.round, if_pos hprod0, toWord]
  have e6 : rnd (x.toNat : ℚ) / 2 ^ w * 2 ^ (logN + 1) = rnd (x.toNat : ℚ) * 2 ^ (logN + 1) / 2 ^ w := by ring
  rw [e6] at hprod hprod0 ⊢
  generalize rnd (x.toNat : ℚ) * 2 ^ (logN + 1) / 2 ^ w = q at *
  rw [Int.floor_intCast, if_pos]
  constructor
  · have : 0 ≤ ⌊q + 1 / 2⌋ := Int.floor_nonneg.2 (by linarith)
    exact_mod_cast this
  · have h1 : (⌊q + 1 / 2⌋ : ℚ) ≤ q + 1 / 2 := Int.floor_le _
    have h2 : (2 : ℚ) ^ (logN + 1) ≤ 2 ^ (w - 1) := pow_le_pow_right₀ (by norm_num) (by omega)
    have h3 : (2 : ℚ) ^ w = 2 * 2 ^ (w - 1) := by rw [← pow_succ', Nat.sub_add_cancel (by rcases hw with h | h <;> rw [h] <;> norm_num)]
    have h4 : (1 : ℚ) ≤ 2 ^ (w - 1) := one_le_pow₀ (by norm_num)
    linarith

/-- An element that a double holds exactly. -/
theorem rescale_exact (w logN : Nat) (hw : w = 32 ∨ w = 64) (hN : logN + 1 < 32) (x : BitVec w)
    (hx : rnd (x.toNat : ℚ) = x.toNat) : rescaleTorusElement x (2 * 2 ^ logN) = some (nearestDegree logN x) := by
  rw [rescale_eq w logN hw hN, hx, nearestDegree]
  have := floor_half (x.toNat * 2 ^ (logN + 1)) (2 ^ w) (by positivity)
  push_cast at this
  rw [this]
  congr 1

/-- C78 for 32-bit words: the exponent of the GPU is that of the CPU. -/
theorem C78_switch_32 (x : BitVec 32) (logN : Nat) (hN : logN + 2 < 32) :
    rescaleTorusElement x (2 * 2 ^ logN) = some (nearestDegree logN x) ∧
    rescaleTorusElement x (2 * 2 ^ logN) = pbsModulusSwitch x logN 0 0 := by
  have h : rescaleTorusElement x (2 * 2 ^ logN) = some (nearestDegree logN x) := by
    refine rescale_exact 32 logN (.inl rfl) (by omega) x ?_
    have hx := x.isLt
    have := rnd_int (x.toNat : ℤ) (by rw [Nat.abs_cast]; omega)
    exact_mod_cast this
  exact ⟨h, by rw [h, (C29_modulus_switch x logN hN).1]⟩

/-- C78 for 64-bit words, proved part: the exponent of the GPU is that of the CPU for the elements that fit in 53 bits
or are multiples of `2^11`; for all elements, its distance to the exact value `x 2N / 2^64` is at most
`1/2 + 2N / 2^54`. Missing: the elements for which it is not the nearest integer (`C78_switch_64_violated`). -/
theorem C78_switch_64_partial (x : BitVec 64) (logN : Nat) (hN : logN + 1 < 32) :
    ((x.toNat < 2 ^ 53 ∨ 2 ^ 11 ∣ x.toNat) →
      rescaleTorusElement x (2 * 2 ^ logN) = some (nearestDegree logN x) ∧
      rescaleTorusElement x (2 * 2 ^ logN) = pbsModulusSwitch x logN 0 0) ∧
    ∃ d : Nat, rescaleTorusElement x (2 * 2 ^ logN) = some d ∧
      |(d : ℚ) - x.toNat * (2 * 2 ^ logN) / 2 ^ 64| ≤ 1 / 2 + 2 * 2 ^ logN / 2 ^ 54 := by
  have hx := x.isLt
  constructor
  · intro h
    have e : rescaleTorusElement x (2 * 2 ^ logN) = some (nearestDegree logN x) := by
      refine rescale_exact 64 logN (.inr rfl) hN x ?_
      rcases h with h | ⟨m, hm⟩
      · have := rnd_int (x.toNat : ℤ) (by rw [Nat.abs_cast]; omega)
        exact_mod_cast this
      · have := rnd_exact (m : ℤ) 11 (by rw [Nat.abs_cast]; omega) (by norm_num)
        have e : (x.toNat : ℚ) = ((m : ℤ) : ℚ) * 2 ^ (11 : ℤ) := by
          rw [hm]; push_cast; ring
        rw [e]; exact this
    exact ⟨e, by rw [e, (C29_modulus_switch x logN (by omega)).1]⟩
  · refine ⟨_, rescale_eq 64 logN (.inr rfl) hN x, ?_⟩
    have hlb : 0 ≤ rnd (x.toNat : ℚ) := rnd_nonneg (by positivity)
    have hulp := abs_rnd_sub_le_ulp (x.toNat : ℚ)
    have hu : ulpExp (x.toNat : ℚ) ≤ 11 := by
      unfold ulpExp
      refine max_le ?_ (by norm_num)
      rw [Nat.abs_cast, Int.log_natCast]
      have : Nat.log 2 x.toNat < 64 := by
        rcases Nat.eq_zero_or_pos x.toNat with h | h
        · rw [h]; simp
        · exact Nat.log_lt_of_lt_pow h.ne' hx
      omega
    have hulp2 : |rnd (x.toNat : ℚ) - x.toNat| ≤ 2 ^ 10 := by
      have : (2 : ℚ) ^ ulpExp (x.toNat : ℚ) ≤ 2 ^ (11 : ℤ) := zpow_le_zpow_right₀ (by norm_num) hu
      norm_num at this ⊢
      linarith
    have hq : 0 ≤ rnd (x.toNat : ℚ) * 2 ^ (logN + 1) / 2 ^ 64 := by positivity
    have hf1 := Int.floor_le (rnd (x.toNat : ℚ) * 2 ^ (logN + 1) / 2 ^ 64 + 1 / 2)
    have hf2 := Int.lt_floor_add_one (rnd (x.toNat : ℚ) * 2 ^ (logN + 1) / 2 ^ 64 + 1 / 2)
    have hf0 : 0 ≤ ⌊rnd (x.toNat : ℚ) * 2 ^ (logN + 1) / 2 ^ 64 + 1 / 2⌋ := Int.floor_nonneg.2 (by linarith)
    obtain ⟨d, hd⟩ := Int.eq_ofNat_of_zero_le hf0
    rw [hd] at hf1 hf2 ⊢
    simp only [Int.toNat_natCast]
    rw [Int.cast_natCast] at hf1 hf2
    have hP : (2 : ℚ) ^ (logN + 1) = 2 * 2 ^ logN := by rw [pow_succ]; ring
    rw [hP] at hf1 hf2
    have hPpos : (0 : ℚ) < 2 * 2 ^ logN := by positivity
    generalize (2 : ℚ) * 2 ^ logN = P at *
    have key : |(rnd (x.toNat : ℚ) - x.toNat) * P / 2 ^ 64| ≤ P / 2 ^ 54 := by
      rw [abs_div, abs_mul, abs_of_pos hPpos, abs_of_pos (by positivity : (0 : ℚ) < 2 ^ 64), div_le_div_iff₀
        (by positivity) (by positivity)]
      have : |rnd (x.toNat : ℚ) - x.toNat| * P ≤ 2 ^ 10 * P := mul_le_mul_of_nonneg_right hulp2 hPpos.le
      calc _ ≤ 2 ^ 10 * P * 2 ^ 54 := mul_le_mul_of_nonneg_right this (by positivity)
        _ = _ := by ring
    obtain ⟨k1, k2⟩ := abs_le.1 key
    have split : (rnd (x.toNat : ℚ) - x.toNat) * P / 2 ^ 64 =
        rnd (x.toNat : ℚ) * P / 2 ^ 64 - x.toNat * P / 2 ^ 64 := by ring
    rw [split] at k1 k2
    generalize rnd (x.toNat : ℚ) * P / 2 ^ 64 = u at *
    generalize (x.toNat : ℚ) * P / 2 ^ 64 = v at *
    generalize P / 2 ^ 54 = ε at *
    rw [abs_le]
    constructor <;> linarith

/-- C78 is violated for 64-bit words: for each polynomial size of the kernels there is an element whose nearest integer
is `N`, that the CPU switches to `N`, and that the GPU switches to `N + 1`. -/
theorem C78_switch_64_violated (logN : Nat) (hN : 2 ^ logN ∈ pbsSizes) :
    let x : BitVec 64 := BitVec.ofNat 64 (2 ^ 63 + 2 ^ (62 - logN) - 1)
    nearestDegree logN x = 2 ^ logN ∧ pbsModulusSwitch x logN 0 0 = some (2 ^ logN) ∧
    rescaleTorusElement x (2 * 2 ^ logN) = some (2 ^ logN + 1) := by
  have h : logN = 8 ∨ logN = 9 ∨ logN = 10 ∨ logN = 11 ∨ logN = 12 ∨ logN = 13 := by
    have h1 : logN < 14 := by
      by_contra h
      have : 2 ^ 14 ≤ 2 ^ logN := Nat.pow_le_pow_right (by norm_num) (by omega)
      simp only [pbsSizes, List.mem_cons, List.not_mem_nil, or_false] at hN
      omega
    interval_cases logN <;> revert hN <;> decide
  rcases h with rfl | rfl | rfl | rfl | rfl | rfl <;> refine ⟨?_, ?_, ?_⟩ <;> decide +kernel

/-- The 32-bit switch on a value: the largest element is switched to `2N`, which is 0 modulo `2N`. -/
example : rescaleTorusElement (BitVec.allOnes 32) 2048 = some 2048 ∧
    rescaleTorusElement (0x80000000#32) 2048 = some 1024 := by decide +kernel

end Verif.Cuda
