import Verif.Fft.Simd
import Verif.Float.BitsLemmas
import Verif.Util.BitVecRing
/-
Lemmas on the vectorised conversions: their bit manipulations compute the fields of the format.
-/
namespace Verif.Fft
open Verif.Float

theorem and_mask (b : BitVec 64) : (b &&& 0xFFFFFFFFFFFFF#64).toNat = fracField b := by
  rw [BitVec.toNat_and]
  exact Nat.and_two_pow_sub_one_eq_mod b.toNat 52

theorem mantissa_toNat (b : BitVec 64) :
    ((b &&& 0xFFFFFFFFFFFFF#64) ||| 0x10000000000000#64).toNat = 2 ^ 52 + fracField b := by
  rw [BitVec.toNat_or, and_mask, Nat.or_comm]
  have h : fracField b < 2 ^ 52 := Nat.mod_lt _ (by norm_num)
  exact (Nat.two_pow_add_eq_or_of_lt h 1).symm

theorem biasedExp_toNat (b : BitVec 64) : ((b >>> 52) &&& 0x7FF#64).toNat = expField b := by
  rw [BitVec.toNat_and, BitVec.toNat_ushiftRight, Nat.shiftRight_eq_div_pow]
  exact Nat.and_two_pow_sub_one_eq_mod _ 11

theorem magnitude_toNat (b : BitVec 64) : (magnitude b).toNat =
    if 1022 < expField b ∧ expField b ≤ 1086 then
      (2 ^ 52 + fracField b) * 2 ^ 11 / 2 ^ (1086 - expField b) else 0 := by
  unfold magnitude srlv
  dsimp only
  have hf : fracField b < 2 ^ 52 := Nat.mod_lt _ (by norm_num)
  have hE : expField b < 2 ^ 11 := Nat.mod_lt _ (by norm_num)
  have hc : (1086#64 - ((b >>> 52) &&& 0x7FF#64)).toNat =
      (2 ^ 64 - expField b + 1086) % 2 ^ 64 := by
    rw [BitVec.toNat_sub, biasedExp_toNat]; rfl
  have hm : (((b &&& 0xFFFFFFFFFFFFF#64) ||| 0x10000000000000#64) <<< 11).toNat =
      (2 ^ 52 + fracField b) * 2 ^ 11 := by
    rw [BitVec.toNat_shiftLeft, mantissa_toNat, Nat.shiftLeft_eq]
    omega
  by_cases h : expField b ≤ 1086
  · have hc' : (2 ^ 64 - expField b + 1086) % 2 ^ 64 = 1086 - expField b := by omega
    rw [hc'] at hc
    rw [hc]
    by_cases h2 : 1022 < expField b
    · rw [if_pos (by omega), if_pos ⟨h2, h⟩, BitVec.toNat_ushiftRight, Nat.shiftRight_eq_div_pow, hm]
    · rw [if_neg (by omega), if_neg (by omega)]; rfl
  · rw [if_neg (by omega), if_neg (by omega)]; rfl

/-- The absolute value of the number written by a bit pattern. -/
theorem abs_ofBits {b : BitVec 64} {q : ℚ} (h : ofBits b = .fin q) :
    expField b < 2047 ∧ (signBit b = true → q ≤ 0) ∧ (signBit b = false → 0 ≤ q) ∧
    |q| = if expField b = 0 then (fracField b : ℚ) * 2 ^ (-1074 : ℤ)
      else (2 ^ 52 + fracField b : ℚ) * 2 ^ ((expField b : ℤ) - 1075) := by
  have hE : expField b < 2 ^ 11 := Nat.mod_lt _ (by norm_num)
  unfold ofBits at h
  dsimp only at h
  have hne : expField b ≠ 2047 := by
    intro hc
    rw [if_pos hc] at h
    split at h
    · split at h <;> cases h
    · cases h
  refine ⟨by omega, ?_⟩
  rw [if_neg hne] at h
  have hp1 := (two_zpow_pos (-1074)).le
  have hp2 := (two_zpow_pos ((expField b : ℤ) - 1075)).le
  have hf0 : (0 : ℚ) ≤ fracField b := by positivity
  have hf1 : (0 : ℚ) ≤ 2 ^ 52 + fracField b := by positivity
  have hA := mul_nonneg hf0 hp1
  have hB := mul_nonneg hf1 hp2
  cases hs : signBit b <;> rw [hs] at h <;>
    simp only [Bool.false_eq_true, if_false, if_true, one_mul, neg_mul, false_implies, true_and,
      true_implies, reduceCtorEq] at h ⊢
  · split at h
    · rename_i h0
      rw [if_pos h0]; injection h with h; rw [← h]; exact ⟨hA, abs_of_nonneg hA⟩
    · rename_i h0
      rw [if_neg h0]; injection h with h; rw [← h]; exact ⟨hB, abs_of_nonneg hB⟩
  · split at h
    · rename_i h0
      rw [if_pos h0]; injection h with h; rw [← h]
      exact ⟨by linarith, by rw [abs_neg]; exact abs_of_nonneg hA⟩
    · rename_i h0
      rw [if_neg h0]; injection h with h; rw [← h]
      exact ⟨by linarith, by rw [abs_neg]; exact abs_of_nonneg hB⟩

/-- The integer part of the absolute value. -/
theorem magnitude_eq {b : BitVec 64} {q : ℚ} (h : ofBits b = .fin q) (hq : |q| < 2 ^ 64) :
    (if expField b = 0 then 0 else ((magnitude b).toNat : ℤ)) = ⌊|q|⌋ := by
  obtain ⟨hE, -, -, hv⟩ := abs_ofBits h
  have hf : fracField b < 2 ^ 52 := Nat.mod_lt _ (by norm_num)
  have hfq : (fracField b : ℚ) < 2 ^ 52 := by exact_mod_cast hf
  have hfq0 : (0 : ℚ) ≤ fracField b := by positivity
  symm
  by_cases h0 : expField b = 0
  · rw [if_pos h0] at hv ⊢
    rw [Int.floor_eq_zero_iff, Set.mem_Ico]
    refine ⟨abs_nonneg _, ?_⟩
    rw [hv]
    calc (fracField b : ℚ) * 2 ^ (-1074 : ℤ) < 2 ^ (52 : ℤ) * 2 ^ (-1074 : ℤ) :=
          mul_lt_mul_of_pos_right hfq (two_zpow_pos _)
      _ = 2 ^ (52 + -1074 : ℤ) := (zpow_add₀ (by norm_num) _ _).symm
      _ ≤ 2 ^ (0 : ℤ) := zpow_le_zpow_right₀ (by norm_num) (by norm_num)
      _ = 1 := zpow_zero _
  · rw [if_neg h0] at hv ⊢
    rw [magnitude_toNat]
    by_cases h2 : 1022 < expField b
    · have h3 : expField b ≤ 1086 := by
        by_contra hc
        push Not at hc
        have : (2 : ℚ) ^ 64 ≤ |q| := by
          rw [hv]
          calc (2 : ℚ) ^ 64 = 2 ^ (52 : ℤ) * 2 ^ (12 : ℤ) := by norm_num
            _ ≤ 2 ^ (52 : ℤ) * 2 ^ ((expField b : ℤ) - 1075) :=
              mul_le_mul_of_nonneg_left (zpow_le_zpow_right₀ (by norm_num) (by omega))
                (two_zpow_pos _).le
            _ ≤ _ := mul_le_mul_of_nonneg_right (by
                rw [show (2 : ℚ) ^ (52 : ℤ) = 2 ^ 52 from rfl]; linarith) (two_zpow_pos _).le
        linarith
      rw [if_pos ⟨h2, h3⟩, hv]
      obtain ⟨s, hs⟩ : ∃ s : ℕ, 1086 = expField b + s := ⟨1086 - expField b, by omega⟩
      rw [show 1086 - expField b = s by omega]
      have e1 : (2 ^ 52 + fracField b : ℚ) * 2 ^ ((expField b : ℤ) - 1075) =
          (((2 ^ 52 + fracField b) * 2 ^ 11 : ℕ) : ℚ) / ((2 ^ s : ℕ) : ℚ) := by
        rw [show (expField b : ℤ) - 1075 = 11 - (s : ℤ) by omega, zpow_sub₀ (by norm_num),
          zpow_natCast]
        push_cast
        rw [mul_div_assoc]
        norm_num
      rw [e1, Rat.floor_natCast_div_natCast]; rfl
    · rw [if_neg (by omega), hv, Nat.cast_zero, Int.floor_eq_zero_iff, Set.mem_Ico]
      refine ⟨mul_nonneg (by positivity) (two_zpow_pos _).le, ?_⟩
      calc (2 ^ 52 + fracField b : ℚ) * 2 ^ ((expField b : ℤ) - 1075)
          < 2 ^ (53 : ℤ) * 2 ^ ((expField b : ℤ) - 1075) :=
            mul_lt_mul_of_pos_right (by
              rw [show (2 : ℚ) ^ (53 : ℤ) = 2 ^ 52 + 2 ^ 52 by norm_num]; linarith) (two_zpow_pos _)
        _ = 2 ^ (53 + ((expField b : ℤ) - 1075)) := (zpow_add₀ (by norm_num) _ _).symm
        _ ≤ 2 ^ (0 : ℤ) := zpow_le_zpow_right₀ (by norm_num) (by omega)
        _ = 1 := zpow_zero _

theorem signMask_msb (b : BitVec 64) : (0#64 - (b >>> 63)).msb = signBit b := by
  rw [BitVec.msb_eq_decide]
  unfold signBit
  rw [decide_eq_decide, BitVec.toNat_sub, BitVec.toNat_ushiftRight, Nat.shiftRight_eq_div_pow,
    BitVec.toNat_ofNat]
  have := b.isLt
  omega

theorem signMask512 (b : BitVec 64) : (b >>> 63 != 1#64) = !signBit b := by
  have h : (b >>> 63 = 1#64) ↔ signBit b = true := by
    unfold signBit
    rw [← BitVec.toNat_inj, BitVec.toNat_ushiftRight, Nat.shiftRight_eq_div_pow, decide_eq_true_iff]
    have := b.isLt
    rw [BitVec.toNat_ofNat]
    omega
  cases hs : signBit b
  · rw [hs] at h; simp only [Bool.false_eq_true, iff_false] at h; simp [bne, h]
  · rw [hs] at h; simp only [iff_true] at h; rw [h]; rfl

theorem expZero (b : BitVec 64) : (((b >>> 52) &&& 0x7FF#64) = 0#64) ↔ expField b = 0 := by
  rw [← BitVec.toNat_inj, biasedExp_toNat]; rfl

theorem allOnes_msb : (BitVec.allOnes 64).msb = true := by decide

/-- Truncation toward zero. -/
def trunc (q : ℚ) : ℤ := if 0 ≤ q then ⌊q⌋ else ⌈q⌉

theorem trunc_signed {q : ℚ} {s : Bool} (h1 : s = true → q ≤ 0) (h2 : s = false → 0 ≤ q) :
    trunc q = if s then -⌊|q|⌋ else ⌊|q|⌋ := by
  unfold trunc
  cases s
  · have := h2 rfl
    rw [if_pos this, abs_of_nonneg this]; rfl
  · have := h1 rfl
    rw [abs_of_nonpos this]
    by_cases h0 : 0 ≤ q
    · have : q = 0 := le_antisymm this h0
      subst this; simp
    · rw [if_neg h0, Int.floor_neg]; simp

/-- The AVX2 conversion. -/
theorem cvtpdEpi64_eq {b : BitVec 64} {q : ℚ} (h : ofBits b = .fin q) (hq : |q| < 2 ^ 64) :
    cvtpdEpi64 b = BitVec.ofInt 64 (trunc q) := by
  have hm := magnitude_eq h hq
  obtain ⟨-, h1, h2, -⟩ := abs_ofBits h
  rw [trunc_signed h1 h2, ← hm]
  unfold cvtpdEpi64 blendv cmpeq
  dsimp only
  rw [signMask_msb]
  by_cases h0 : expField b = 0
  · rw [if_pos ((expZero b).2 h0), allOnes_msb, if_pos rfl, if_pos h0]; simp
  · rw [if_neg (fun hc => h0 ((expZero b).1 hc)), if_neg h0]
    have hz : (0#64).msb = false := by decide
    have hp : BitVec.ofInt 64 ((magnitude b).toNat : ℤ) = magnitude b := by
      rw [BitVec.ofInt_natCast]; simp
    rw [hz]
    cases signBit b
    · simp [hp]
    · simp only [Bool.false_eq_true, if_false, if_true]
      rw [BitVec.ofInt_neg, hp]; simp

/-- The AVX-512 conversion has the opposite sign. -/
theorem cvtpdEpi64Avx512_eq (b : BitVec 64) : cvtpdEpi64Avx512 b = -cvtpdEpi64 b := by
  unfold cvtpdEpi64Avx512 cvtpdEpi64 blendv cmpeq
  dsimp only
  rw [signMask_msb, signMask512]
  by_cases h0 : expField b = 0
  · have h := (expZero b).2 h0
    rw [if_pos h, h, allOnes_msb]; simp
  · have h : ¬ ((b >>> 52) &&& 0x7FF#64) = 0#64 := fun hc => h0 ((expZero b).1 hc)
    have hz : (0#64).msb = false := by decide
    have hb : (((b >>> 52) &&& 0x7FF#64) == 0#64) = false := by simpa using h
    rw [if_neg h, hb, hz]
    cases signBit b <;> simp

/-! ### From integers -/

theorem toBits_c1 : toBits (.fin 442721857769029238784) = 0x4438000000000000#64 := by decide +kernel

theorem toBits_c2 : toBits (.fin 4503599627370496) = 0x4330000000000000#64 := by decide +kernel

/-- The top 16 bits of an integer, with its sign. -/
def top16 (x : BitVec 64) : ℤ := if 2 ^ 63 ≤ x.toNat then (x.toNat : ℤ) / 2 ^ 48 - 2 ^ 16 else (x.toNat : ℤ) / 2 ^ 48

theorem toInt_split (x : BitVec 64) : x.toInt = top16 x * 2 ^ 48 + (x.toNat : ℤ) % 2 ^ 48 := by
  unfold top16
  rw [BitVec.toInt_eq_toNat_cond]
  have := x.isLt
  split <;> split <;> omega

theorem top16_bounds (x : BitVec 64) : -2 ^ 15 ≤ top16 x ∧ top16 x < 2 ^ 15 := by
  unfold top16
  have := x.isLt
  split <;> omega

theorem hi_toNat (x : BitVec 64) : ((blend33 (srai32 x) 0#64).toNat : ℤ) =
    (if 2 ^ 63 ≤ x.toNat then top16 x + 2 ^ 32 else top16 x) * 2 ^ 32 := by
  have hx := x.isLt
  have h1 : (srai32 x).extractLsb' 32 32 = (x.extractLsb' 32 32).sshiftRight 16 := by
    unfold srai32
    apply BitVec.eq_of_toNat_eq
    rw [BitVec.extractLsb'_toNat, BitVec.toNat_append, Nat.shiftRight_eq_div_pow]
    generalize (BitVec.sshiftRight (BitVec.extractLsb' 32 32 x) 16) = A
    generalize (BitVec.sshiftRight (BitVec.extractLsb' 0 32 x) 16) = B
    have hA := A.isLt
    have hB := B.isLt
    rw [← Nat.shiftLeft_add_eq_or_of_lt hB, Nat.shiftLeft_eq]
    omega
  unfold blend33
  rw [h1, BitVec.toNat_append, BitVec.extractLsb'_toNat]
  have h2 : (0#64).toNat >>> 0 % 2 ^ 32 = 0 := by decide
  rw [h2, Nat.or_zero, Nat.shiftLeft_eq]
  push_cast
  congr 1
  have h3 : (x.extractLsb' 32 32).toNat = x.toNat / 2 ^ 32 := by
    rw [BitVec.extractLsb'_toNat, Nat.shiftRight_eq_div_pow]; omega
  unfold top16
  rw [BitVec.sshiftRight, BitVec.toNat_ofInt, Int.shiftRight_eq_div_pow, BitVec.toInt_eq_toNat_cond, h3]
  split <;> split <;> omega

theorem lo_toNat (x : BitVec 64) : (blend88 x 0x4330000000000000#64).toNat =
    0 * 2 ^ 63 + (1075 * 2 ^ 52 + x.toNat % 2 ^ 48) := by
  unfold blend88
  have h1 : (x.extractLsb' 0 48).toNat = x.toNat % 2 ^ 48 := by
    rw [BitVec.extractLsb'_toNat, Nat.shiftRight_zero]
  have hB := (x.extractLsb' 0 48).isLt
  rw [BitVec.toNat_append, ← Nat.shiftLeft_add_eq_or_of_lt hB, Nat.shiftLeft_eq, h1]
  have h2 : (BitVec.extractLsb' 48 16 0x4330000000000000#64).toNat = 0x4330 := by decide
  rw [h2]
  omega

theorem ofBits_lo (x : BitVec 64) :
    ofBits (blend88 x (toBits (.fin 4503599627370496))) =
      .fin (((2 ^ 52 + (x.toNat : ℤ) % 2 ^ 48 : ℤ)) : ℚ) := by
  rw [toBits_c2]
  have hlt : x.toNat % 2 ^ 48 < 2 ^ 52 := by omega
  obtain ⟨f1, f2, f3⟩ := fields 0 1075 (x.toNat % 2 ^ 48) (by norm_num) (by norm_num) hlt
  rw [← lo_toNat, BitVec.ofNat_toNat, BitVec.setWidth_eq] at f1 f2 f3
  unfold ofBits
  dsimp only
  rw [f1, f2, f3]
  norm_num
  exact_mod_cast rfl

theorem ofBits_hi (x : BitVec 64) :
    ofBits (blend33 (srai32 x) 0#64 + toBits (.fin 442721857769029238784)) =
      .fin ((3 * 2 ^ 67 + top16 x * 2 ^ 48 : ℤ) : ℚ) := by
  rw [toBits_c1]
  have hb := top16_bounds x
  have hh := hi_toNat x
  obtain ⟨m, hm⟩ : ∃ m : ℕ, (m : ℤ) = 2 ^ 51 + top16 x * 2 ^ 32 :=
    ⟨(2 ^ 51 + top16 x * 2 ^ 32).toNat, by omega⟩
  obtain ⟨f1, f2, f3⟩ := fields 0 1091 m (by norm_num) (by norm_num) (by omega)
  have e : (blend33 (srai32 x) 0#64 + 0x4438000000000000#64).toNat = 0 * 2 ^ 63 + (1091 * 2 ^ 52 + m) := by
    rw [BitVec.toNat_add]
    have h1 : (0x4438000000000000#64).toNat = 0x4438000000000000 := by decide
    rw [h1]
    split at hh <;> omega
  rw [← e, BitVec.ofNat_toNat, BitVec.setWidth_eq] at f1 f2 f3
  unfold ofBits
  dsimp only
  rw [f1, f2, f3]
  have hmq : (m : ℚ) = 2 ^ 51 + (top16 x : ℚ) * 2 ^ 32 := by exact_mod_cast hm
  rw [hmq]
  push_cast
  norm_num
  ring

/-- The AVX2 conversion of integers is the correctly rounded one. -/
theorem cvtepi64Pd_eq (x : BitVec 64) : cvtepi64Pd x = ofRat x.toInt := by
  unfold cvtepi64Pd
  dsimp only
  rw [ofBits_hi, ofBits_lo]
  have hb := top16_bounds x
  have hs : F64.sub (.fin ((3 * 2 ^ 67 + top16 x * 2 ^ 48 : ℤ) : ℚ)) (.fin 442726361368656609280) =
      .fin (((top16 x - 16 : ℤ) : ℚ) * 2 ^ (48 : ℤ)) := by
    unfold F64.sub F64.neg F64.add
    dsimp only
    rw [show ((3 * 2 ^ 67 + top16 x * 2 ^ 48 : ℤ) : ℚ) + -442726361368656609280 =
      ((top16 x - 16 : ℤ) : ℚ) * 2 ^ (48 : ℤ) by push_cast; ring]
    apply ofRat_rep ⟨top16 x - 16, 48, by rw [abs_le]; constructor <;> omega, by norm_num, rfl⟩
    have h1 : |((top16 x - 16 : ℤ) : ℚ) * 2 ^ (48 : ℤ)| ≤ 2 ^ 64 := by
      rw [abs_mul, abs_of_pos (two_zpow_pos 48)]
      have : |((top16 x - 16 : ℤ) : ℚ)| ≤ 2 ^ 16 := by
        have : |top16 x - 16| ≤ 2 ^ 16 := by rw [abs_le]; constructor <;> omega
        exact_mod_cast this
      calc |((top16 x - 16 : ℤ) : ℚ)| * 2 ^ (48 : ℤ) ≤ 2 ^ 16 * 2 ^ (48 : ℤ) :=
            mul_le_mul_of_nonneg_right this (two_zpow_pos _).le
        _ = 2 ^ 64 := by norm_num
    exact h1.trans (pow_le_1022 64 (by norm_num))
  rw [hs]
  unfold F64.add
  dsimp only
  congr 1
  rw [toInt_split]
  push_cast
  ring

end Verif.Fft
