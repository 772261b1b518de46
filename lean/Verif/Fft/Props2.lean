import Verif.Fft.Props
import Verif.Pbs.Examples
/-
Property C64: the conversions between polynomials and floats, on every processor.
-/
namespace Verif.Fft
open Verif.Float Verif.Encode Verif.BV

variable {w : ℕ}

/-- C64. The vectorised conversion of a 64-bit integer is the float nearest to it, ties to even, for all integers. -/
theorem C64_int_to_float (x : BitVec 64) : cvtepi64Pd x = ofRat x.toInt := cvtepi64Pd_eq x

/-- C64. The vectorised conversion of a float to a 64-bit integer truncates towards zero, for all floats (normal,
subnormal, zero) of absolute value less than `2^64`; the result is reduced modulo `2^64`. -/
theorem C64_float_to_int (q : ℚ) (hr : Rep q) (hq : |q| < 2 ^ 64) :
    cvtpdEpi64 (toBits (.fin q)) = BitVec.ofInt 64 (if 0 ≤ q then ⌊q⌋ else ⌈q⌉) := by
  refine cvtpdEpi64_eq (ofBits_toBits hr (hq.trans_le ?_)) hq
  rw [← zpow_natCast]
  exact zpow_le_zpow_right₀ (by norm_num) (by norm_num)

/-- C64. The AVX-512 version of the previous conversion returns the opposite: the property fails for it. -/
theorem C64_float_to_int_avx512_violated (q : ℚ) (hr : Rep q) (hq : |q| < 2 ^ 64) :
    cvtpdEpi64Avx512 (toBits (.fin q)) = BitVec.ofInt 64 (-if 0 ≤ q then ⌊q⌋ else ⌈q⌉) := by
  rw [cvtpdEpi64Avx512_eq, C64_float_to_int q hr hq, BitVec.ofInt_neg]

/-- C64. From a float to the torus: the class of an integer that is within 3/2 of the float times `2^w`, with the
portable version, and within 1/2 with the vectorised ones. Partial: all versions but the 64-bit AVX-512 one. -/
theorem C64_to_torus_partial (w : ℕ) (hw : w = 32 ∨ w = 64) (q : ℚ) (hq : Rep q) :
    (∃ K : ℤ, fromTorus w (.fin q) = (K : BitVec w) ∧ |(K : ℚ) - 2 ^ w * q| ≤ 3 / 2) ∧
    (∃ K : ℤ, cvtTorusFma w (fracFused w (.fin q)) = (K : BitVec w) ∧ |(K : ℚ) - 2 ^ w * q| ≤ 1 / 2) ∧
    (w = 32 → ∃ K : ℤ, cvtTorusAvx512 w (fracFused w (.fin q)) = (K : BitVec w) ∧ |(K : ℚ) - 2 ^ w * q| ≤ 1 / 2) := by
  refine ⟨fromTorus_near w (by omega) (by omega) q hq, cvtTorusFma_near w hw q hq, ?_⟩
  rintro rfl
  exact cvtTorusFma_near 32 hw q hq

/-- C64. The digits of a decomposition on the way to the Fourier domain: whatever the processor, each output is within
`4 * 2^-49 * D` of the exact product by the power of the root of unity. -/
theorem C64_forward_integer (n : ℕ) (h8 : 8 ∣ n) (hw : w ≤ 128) (c : Cpu) (re im : List (BitVec w)) (tw : List C64)
    (hr : re.length = n) (hi : im.length = n) (ht : TwistAccurate n tw) (D : ℝ) (hD : 1 ≤ D) (hD2 : D ≤ 2 ^ 90)
    (hre : ∀ j, j < n → |((re.getD j 0).toInt : ℝ)| ≤ D) (him : ∀ j, j < n → |((im.getD j 0).toInt : ℝ)| ≤ D) :
    (convertForwardInteger c re im tw).length = n ∧
      ∀ j, j < n → ‖vals (convertForwardInteger c re im tw) j -
        (((re.getD j 0).toInt : ℂ) + ((im.getD j 0).toInt : ℂ) * Complex.I) * xi n ^ j‖ ≤ 4 * (1 / 2 ^ 49) * D := by
  have h4 : 4 ∣ n := (by norm_num : 4 ∣ 8).trans h8
  have key : ∀ fused : Bool, ∀ j, j < n →
      ‖(if fused then mulFused (ofSigned (re.getD j 0)) (ofSigned (im.getD j 0)) (at' tw j)
        else integerElt (re.getD j 0) (im.getD j 0) (at' tw j)).val -
        (((re.getD j 0).toInt : ℂ) + ((im.getD j 0).toInt : ℂ) * Complex.I) * xi n ^ j‖ ≤ 4 * (1 / 2 ^ 49) * D := by
    intro fused j hj
    have := (digit_err (re.getD j 0) (im.getD j 0) hw D hD hD2 (hre j hj) (him j hj) (at' tw j) (xi n ^ j)
      (norm_xi_pow n j) (ht.2 j hj).1 (ht.2 j hj).2 fused).2.1
    rw [packed, Complex.ofReal_one, one_mul] at this
    refine this.trans (le_of_eq ?_)
    unfold gam
    ring
  have fin : ∀ fused : Bool, convertForwardInteger c re im tw = (List.range n).map (fun j =>
      if fused then mulFused (ofSigned (re.getD j 0)) (ofSigned (im.getD j 0)) (at' tw j)
        else integerElt (re.getD j 0) (im.getD j 0) (at' tw j)) → (convertForwardInteger c re im tw).length = n ∧
      ∀ j, j < n → ‖vals (convertForwardInteger c re im tw) j -
        (((re.getD j 0).toInt : ℂ) + ((im.getD j 0).toInt : ℂ) * Complex.I) * xi n ^ j‖ ≤ 4 * (1 / 2 ^ 49) * D := by
    intro fused e
    rw [e]
    refine ⟨by simp, fun j hj => ?_⟩
    rw [vals, at_range _ hj]
    exact key fused j hj
  cases hisa : forwardIsa w c with
  | scalar =>
    refine fin false ?_
    unfold convertForwardInteger
    rw [hisa]
    exact forwardIntegerScalar_eq n re im tw hr hi ht.1
  | fma =>
    refine fin true ?_
    unfold convertForwardInteger
    rw [hisa]
    exact forwardIntegerFma_eq n h4 re im tw hr hi ht.1
  | avx512 =>
    refine fin true ?_
    unfold convertForwardInteger
    rw [hisa]
    exact forwardIntegerAvx512_eq n h8 re im tw hr hi ht.1

/-- C64. The vectorised loops do not handle what remains after the last full block: with AVX2 and FMA and fewer than
4 complex values, nothing is added to the output (in a debug build an assertion fails instead). -/
theorem C64_small_sizes_violated (re im : List (BitVec w)) (inp tw : List C64) (hr : re.length < 4) :
    convertAddBackwardTorusFma re im inp tw = (re, im) := by
  unfold convertAddBackwardTorusFma storeBlocks
  dsimp only
  rw [Nat.div_eq_of_lt hr]
  simp

/-! ### The hypotheses can be met -/

/-- A processor with AVX2 and FMA. -/
def avx2Cpu : Cpu := ⟨true, false, false, false, true, true⟩
/-- A processor with AVX-512, and the feature of the crate. -/
def avx512Cpu : Cpu := ⟨true, true, true, true, true, true⟩
/-- Another architecture. -/
def armCpu : Cpu := ⟨false, false, false, false, false, false⟩

example : backwardIsa 64 avx2Cpu ≠ .avx512 ∧ backwardIsa 64 armCpu ≠ .avx512 ∧ backwardIsa 64 avx512Cpu = .avx512 := by
  decide

theorem ideal_const (M : ℕ) (hM : M ≤ 1000) : 2 * u53 + ((M : ℝ) + 1) / 2 ^ 48 ≤ 1 / 100 := by
  have h1 : (M : ℝ) ≤ 1000 := by exact_mod_cast hM
  have h2 := u53_le
  have h3 : ((M : ℝ) + 1) / 2 ^ 48 ≤ 1001 / 2 ^ 48 := div_le_div_of_nonneg_right (by linarith) (by positivity)
  have h4 : (1001 : ℝ) / 2 ^ 48 ≤ 1 / 1000000 := by norm_num
  linarith

/-- C63: polynomials of 1024 coefficients, 32-bit torus, 3 products by digits of 7 bits; the transform and the sines
are rounded to nearest. -/
example : (fftTransform 32 avx512Cpu (idealPlan 512) (twisties idealSinCos 512)).Accurate 1024 3 64
    (fftError 32 1024 3 64 (2 * u53)) :=
  C63_products_partial (Or.inl rfl) 512 (by norm_num) (by norm_num) (by norm_num) avx512Cpu (by decide) (idealPlan 512)
    (2 * u53) (by linarith [u53_pos]) (idealPlan_accurate 512 (by norm_num) (by norm_num)) idealSinCos
    idealSinCos_accurate 3 64 (by norm_num) (by norm_num) (by have := ideal_const 3 (by norm_num); exact_mod_cast this)

/-- The bound of this example is 204 units in the last place of 32 bits. -/
theorem fftError_example : fftError 32 1024 3 64 (2 * u53) ≤ 204 := by
  rw [fftError]
  have : ⌈(2 : ℝ) ^ 32 * (16 * (2 * u53 + ((3 : ℕ) + 1) / 2 ^ 48) * (3 : ℕ) * ((64 : ℤ) : ℝ) * (1024 : ℕ))⌉ ≤ 202 := by
    rw [Int.ceil_le]
    unfold u53
    norm_num
  linarith

/-- C63 with 64-bit torus on AVX2. -/
example : (fftTransform 64 avx2Cpu (idealPlan 1024) (twisties idealSinCos 1024)).Accurate 2048 2 (2 ^ 22)
    (fftError 64 2048 2 (2 ^ 22) (2 * u53)) :=
  C63_products_partial (Or.inr rfl) 1024 (by norm_num) (by norm_num) (by norm_num) avx2Cpu (by decide) (idealPlan 1024)
    (2 * u53) (by linarith [u53_pos]) (idealPlan_accurate 1024 (by norm_num) (by norm_num)) idealSinCos
    idealSinCos_accurate 2 (2 ^ 22) (by norm_num) (by norm_num)
    (by have := ideal_const 2 (by norm_num); exact_mod_cast this)

/-- The 64-bit AVX-512 products are wrong: no error bound below `2^62` holds. -/
example : ¬(fftTransform 64 avx512Cpu (idealPlan 512) (twisties idealSinCos 512)).Accurate 1024 1 1 (2 ^ 62) :=
  C63_avx512_violated 512 (by norm_num) (by norm_num) (by norm_num) avx512Cpu (by decide) (idealPlan 512)
    (2 * u53) (by linarith [u53_pos]) (idealPlan_accurate 512 (by norm_num) (by norm_num)) idealSinCos
    idealSinCos_accurate (by have := ideal_const 1 (by norm_num); exact_mod_cast this) (2 ^ 62) (by
      have : fftError 64 (2 * 512) 1 1 (2 * u53) ≤ 2 ^ 61 := by
        rw [fftError]
        have : ⌈(2 : ℝ) ^ 64 * (16 * (2 * u53 + ((1 : ℕ) + 1) / 2 ^ 48) * (1 : ℕ) * ((1 : ℤ) : ℝ) * ((2 * 512 : ℕ) : ℝ))⌉
            ≤ 2 ^ 40 := by
          rw [Int.ceil_le]
          unfold u53
          norm_num
        omega
      omega)

open Verif.Poly Verif.Glwe Verif.Pbs Verif.Decomp in
/-- The hypotheses of `C63_bootstrap_partial` are met: keys of ones, a bootstrap key of gadget ciphertexts, the trivial
accumulator of a constant table, size 1024. -/
example : ∃ (bsk : List (BitVec 64)) (r : List (BitVec 64)),
    bootstrap (cmuxFft (fftTransform 64 avx2Cpu (idealPlan (2 ^ (10 - 1))) (twisties idealSinCos (2 ^ (10 - 1)))) (2 ^ 10) 1 8 3)
      (2 ^ 10) 10 (List.replicate (1 * 2 ^ 10 + 1) 0) (List.replicate 6 5)
      (List.replicate (1 * 2 ^ 10) 0#64 ++ List.replicate (2 ^ 10) 7)
      (bskGgsws (fftTransform 64 avx2Cpu (idealPlan (2 ^ (10 - 1))) (twisties idealSinCos (2 ^ (10 - 1)))) (2 ^ 10) 1 3 bsk) =
        some r ∧ Lwe.Fits (List.replicate (2 ^ 10) 1#64) r := by
  obtain ⟨bsk, h⟩ := exists_bsk (2 ^ 10) 1 8 3 (by norm_num) (by decide) (List.replicate 5 1#64) (List.replicate (2 ^ 10) 1)
  obtain ⟨a1, a2⟩ := C31_trivial_accumulator (2 ^ 10) 1 (by norm_num) (List.replicate (2 ^ 10) 1#64)
    (List.replicate (2 ^ 10) 7) List.length_replicate
  obtain ⟨r, h1, h2, _⟩ := C63_bootstrap_partial (Or.inr rfl) 10 1 8 3 (by norm_num) (by norm_num) (by norm_num) avx2Cpu
    (by decide) (idealPlan (2 ^ (10 - 1))) (2 * u53) (by linarith [u53_pos])
    (idealPlan_accurate _ (by norm_num) (by norm_num)) idealSinCos idealSinCos_accurate
    (ideal_const (3 * (1 + 1)) (by norm_num)) 1 0 ⟨by decide, by decide, by decide⟩ (by norm_num) le_rfl
    (List.replicate 5 1#64) (List.replicate (2 ^ 10) 1) bsk _ (List.replicate (2 ^ 10) 7) (List.replicate 6 5)
    (List.replicate (1 * 2 ^ 10 + 1) 0) (by rw [KeyFits, List.length_replicate, one_mul])
    (by intro x hx; rw [List.eq_of_mem_replicate hx]; decide) (by intro x hx; rw [List.eq_of_mem_replicate hx]; decide)
    h a1 List.length_replicate a2 (by simp [Lwe.Fits]) List.length_replicate
  exact ⟨bsk, r, h1, h2⟩

/-- C64: a value that is truncated, a value of the torus on both sides of one half. -/
example : Rep (-5 / 2 : ℚ) ∧ |(-5 / 2 : ℚ)| < 2 ^ 64 := ⟨⟨-5, -1, by decide, by decide, by norm_num⟩, by norm_num⟩
example : fromTorus 32 (.fin (1 / 2 - 1 / 2 ^ 40)) = 0x7FFFFFFF#32 ∧
    cvtTorusFma 32 (fracFused 32 (.fin (1 / 2 - 1 / 2 ^ 40))) = 0x80000000#32 := by
  decide +kernel
example : TwistAccurate 512 (twisties idealSinCos 512) :=
  twisties_accurate idealSinCos idealSinCos_accurate 512 (by norm_num) (by norm_num)

end Verif.Fft
