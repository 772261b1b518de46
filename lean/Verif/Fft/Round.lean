import Verif.Fft.Blocks
import Verif.Encode.Lemmas
/-
The last step of the backward transform: from a float to the nearest element of the discretised torus.
-/
namespace Verif.Fft
open Verif.Float Verif.Encode Verif.BV

/-- `x` is the class of an integer within `e` of `2^w * q`. -/
def Near (w : ℕ) (x : BitVec w) (q e : ℚ) : Prop := ∃ K : ℤ, x = (K : BitVec w) ∧ |(K : ℚ) - 2 ^ w * q| ≤ e

theorem ofInt_eq_cast (w : ℕ) (v : ℤ) : BitVec.ofInt w v = (v : BitVec w) := rfl

theorem near_of_frac {w : ℕ} {x : BitVec w} {q e : ℚ} (r v : ℤ) (hx : x = (v : BitVec w))
    (h : |(v : ℚ) - (q - r) * 2 ^ w| ≤ e) : Near w x q e := by
  refine ⟨v + 2 ^ w * r, ?_, ?_⟩
  · rw [hx]
    push_cast
    have e0 : (2 : BitVec w) ^ w = 0 := by
      have := two_pow_self (w := w)
      push_cast at this
      exact this
    rw [e0, zero_mul, add_zero]
  · push_cast
    rw [show (v : ℚ) + 2 ^ w * r - 2 ^ w * q = v - (q - r) * 2 ^ w by ring]
    exact h

/-- The scalar conversion, which saturates. -/
theorem fromTorus_near (w : ℕ) (hw0 : 1 ≤ w) (hw : w ≤ 128) (q : ℚ) (hq : Rep q) :
    Near w (fromTorus w (.fin q)) q (3 / 2) := by
  obtain ⟨r, v, -, -, -, h1, -, h2⟩ := fromTorus_spec w hw0 hw q hq
  refine near_of_frac r _ (h2.trans (ofInt_eq_cast w _)) ?_
  rw [abs_sub_comm] at h1
  split
  · rename_i e
    rw [e] at h1
    push_cast at h1 ⊢
    rw [abs_le] at h1 ⊢
    constructor <;> linarith [h1.1, h1.2]
  · exact h1.trans (by norm_num)

theorem rne_zero_of_lt {q : ℚ} (h : |q| < 1 / 2) : rne q = 0 := by
  have h1 := abs_rne_sub_le q
  rw [abs_lt] at h
  rw [abs_le] at h1
  have h2 : ((rne q : ℤ) : ℚ) < 1 := by linarith
  have h3 : (-1 : ℚ) < (rne q : ℤ) := by linarith
  have h2' : rne q < 1 := by exact_mod_cast h2
  have h3' : -1 < rne q := by exact_mod_cast h3
  omega

theorem rep_rne {q : ℚ} (h : Rep q) : Rep (rne q : ℚ) := by
  obtain ⟨k, e, hk, he, rfl⟩ := h
  by_cases he0 : 0 ≤ e
  · obtain ⟨n, rfl⟩ : ∃ n : ℕ, e = n := ⟨e.toNat, by omega⟩
    have e1 : (k : ℚ) * 2 ^ (n : ℤ) = ((k * 2 ^ n : ℤ) : ℚ) := by rw [zpow_natCast]; push_cast; ring
    rw [e1, rne_intCast, ← e1]
    exact ⟨k, n, hk, he, rfl⟩
  · apply rep_int
    have h1 : |(k : ℚ) * 2 ^ e| ≤ 2 ^ 53 := by
      rw [abs_mul, abs_of_pos (two_zpow_pos e)]
      have h2 : (2 : ℚ) ^ e ≤ 1 := zpow_le_one_of_nonpos₀ (by norm_num) (by omega)
      have h3 : |(k : ℚ)| ≤ 2 ^ 53 := by
        have : |k| ≤ 2 ^ 53 := by
          rw [Int.abs_eq_natAbs] at *
          omega
        exact_mod_cast this
      calc |(k : ℚ)| * 2 ^ e ≤ 2 ^ 53 * 1 := mul_le_mul h3 h2 (two_zpow_pos e).le (by positivity)
        _ = 2 ^ 53 := by ring
    generalize (k : ℚ) * 2 ^ e = q at *
    rw [abs_le] at h1 ⊢
    constructor
    · have := rne_mono_int (-2 ^ 53) q (by push_cast; exact h1.1)
      exact this
    · have := rne_mono_int (-2 ^ 53) (-q) (by push_cast; linarith [h1.2])
      rw [rne_neg] at this
      omega

/-- The scaled fractional part is an integer of absolute value at most `2^(w-1)`. -/
theorem fracFused_spec (w : ℕ) (hw0 : 1 ≤ w) (hw : w ≤ 128) (q : ℚ) (hq : Rep q) :
    ∃ r v : ℤ, fracFused w (.fin q) = .fin v ∧ Rep (v : ℚ) ∧ |(v : ℚ) - (q - r) * 2 ^ w| ≤ 1 / 2 ∧ |v| ≤ 2 ^ (w - 1) := by
  have hr1 := abs_rne_sub_le q
  rw [abs_sub_comm] at hr1
  have hs := hq.sub_round (rne q) hr1 fun h => rne_zero_of_lt h
  have hone : |q - rne q| ≤ 2 ^ 1022 := hr1.trans
    ((by norm_num : (1 : ℚ) / 2 ≤ 1).trans (one_le_pow₀ (by norm_num)))
  have hm : (F64.fin (2 ^ (w : ℤ))).mul (.fin (q - rne q)) = .fin ((q - rne q) * 2 ^ (w : ℤ)) := by
    show ofRat (2 ^ (w : ℤ) * (q - rne q)) = _
    rw [mul_comm]
    exact ofRat_rep (hs.mul_pow w) (abs_half_le _ hr1 w hw)
  refine ⟨rne q, rne ((q - rne q) * 2 ^ (w : ℤ)), ?_, rep_rne (hs.mul_pow w), ?_, ?_⟩
  · unfold fracFused
    rw [powi2_eq w (by omega) (by omega)]
    show ((F64.fin (2 ^ (w : ℤ))).mul ((F64.fin q).sub (.fin (rne q : ℚ)))).roundEven = _
    rw [fin_sub, ofRat_rep hs hone, hm]
    rfl
  · have := abs_rne_sub_le ((q - rne q) * 2 ^ (w : ℤ))
    rwa [zpow_natCast] at this ⊢
  · clear hone hm
    have hpow : (2 : ℚ) ^ w = 2 * 2 ^ (w - 1) := by rw [← pow_succ']; congr 1; omega
    have hb : |(q - rne q) * 2 ^ (w : ℤ)| ≤ 2 ^ (w - 1) := by
      rw [abs_mul, zpow_natCast, abs_of_pos (by positivity : (0 : ℚ) < 2 ^ w), hpow]
      have : (0 : ℚ) < 2 ^ (w - 1) := by positivity
      nlinarith
    rw [abs_le] at hb ⊢
    constructor
    · exact rne_mono_int (-2 ^ (w - 1)) _ (by push_cast; exact hb.1)
    · have := rne_mono_int (-2 ^ (w - 1)) (-((q - rne q) * 2 ^ (w : ℤ))) (by push_cast; linarith [hb.2])
      rw [rne_neg] at this
      omega

theorem cvtpdEpi32_int (v : ℤ) (hv : |v| ≤ 2 ^ 31) : cvtpdEpi32 (.fin v) = BitVec.ofInt 32 v := by
  show (if -2 ^ 31 ≤ rne (v : ℚ) ∧ rne (v : ℚ) < 2 ^ 31 then BitVec.ofInt 32 (rne (v : ℚ)) else 0x80000000#32) = _
  rw [rne_intCast]
  rw [abs_le] at hv
  split
  · rfl
  · have : v = 2 ^ 31 := by omega
    subst this
    decide

theorem trunc_int (v : ℤ) : trunc (v : ℚ) = v := by
  unfold trunc
  split
  · exact Int.floor_intCast v
  · exact Int.ceil_intCast v

theorem cvtpdEpi64_int (v : ℤ) (hr : Rep (v : ℚ)) (hv : |v| ≤ 2 ^ 63) :
    cvtpdEpi64 (toBits (.fin v)) = BitVec.ofInt 64 v := by
  have hv' : |(v : ℚ)| < 2 ^ 64 := by
    have : |v| < 2 ^ 64 := by rw [Int.abs_eq_natAbs] at *; omega
    exact_mod_cast this
  rw [cvtpdEpi64_eq (ofBits_toBits hr (hv'.trans_le ?_)) hv', trunc_int]
  rw [← zpow_natCast]
  exact zpow_le_zpow_right₀ (by norm_num) (by norm_num)

/-- The vectorised conversion: the nearest torus element, without saturation. -/
theorem cvtTorusFma_near (w : ℕ) (hw : w = 32 ∨ w = 64) (q : ℚ) (hq : Rep q) :
    Near w (cvtTorusFma w (fracFused w (.fin q))) q (1 / 2) := by
  obtain ⟨r, v, h1, h2, h3, h4⟩ := fracFused_spec w (by omega) (by omega) q hq
  refine near_of_frac r v ?_ h3
  rw [h1, ← ofInt_eq_cast]
  unfold cvtTorusFma
  rcases hw with rfl | rfl
  · rw [if_neg (by decide), cvtpdEpi32_int v h4, BitVec.setWidth_eq]
  · rw [if_pos rfl, cvtpdEpi64_int v h2 h4, BitVec.setWidth_eq]

/-- With AVX-512 and 32 bits it is the same; with 64 bits the result is negated. -/
theorem cvtTorusAvx512_eq32 (x : F64) : cvtTorusAvx512 32 x = cvtTorusFma 32 x := rfl

theorem cvtTorusAvx512_eq64 (x : F64) : cvtTorusAvx512 64 x = -cvtTorusFma 64 x := by
  unfold cvtTorusAvx512 cvtTorusFma
  rw [if_pos rfl, if_pos rfl, cvtpdEpi64Avx512_eq, BitVec.setWidth_eq, BitVec.setWidth_eq]

end Verif.Fft
