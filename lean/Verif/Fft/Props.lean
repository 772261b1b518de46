import Verif.Fft.Accurate
import Verif.Fft.Ideal
import Verif.Pbs.Props2
/-
Properties C63 and C64.
-/
namespace Verif.Fft
open Verif.Float Verif.Poly Verif.Glwe Verif.Pbs Verif.Decomp Verif.BV

variable {w : ℕ}

/-- The error of a sum of `M` products of polynomials of size `N`, whose second factors have coefficients of absolute
value at most `D`, computed with a transform of relative error `ε`: in units in the last place of a `w`-bit torus. -/
noncomputable def fftError (w N M : ℕ) (D : ℤ) (ε : ℝ) : ℤ :=
  ⌈2 ^ w * (16 * (ε + (M + 1) / 2 ^ 48) * M * D * N)⌉ + 2

theorem fftError_le (w N M : ℕ) (D : ℤ) (ε : ℝ) :
    2 ^ w * (16 * (ε + (M + 1) / 2 ^ 48) * M * D * N) + 2 ≤ ((fftError w N M D ε : ℤ) : ℝ) := by
  rw [fftError]
  push_cast
  linarith [Int.le_ceil ((2 : ℝ) ^ w * (16 * (ε + (M + 1) / 2 ^ 48) * M * D * N))]

/-- C63. The floating point transform of polynomials of size `N = 2n` adds sums of products of polynomials with an
explicit error. Partial: the property fails for the 64-bit AVX-512 version (`C63_avx512_subtracts`), which is
excluded, and sizes that are not multiples of 16 are not covered. -/
theorem C63_products_partial (hw : w = 32 ∨ w = 64) (n : ℕ) (hn0 : 0 < n) (h8 : 8 ∣ n) (hn : n ≤ 2 ^ 40) (c : Cpu)
    (hcpu : w = 64 → backwardIsa 64 c ≠ .avx512) (plan : Plan) (ε : ℝ) (hε : 0 ≤ ε) (hplan : PlanAccurate n plan ε)
    (sinCos : F64 → F64 × F64) (hs : SinCosAccurate sinCos) (M : ℕ) (D : ℤ) (hD : 1 ≤ D) (hD2 : D ≤ 2 ^ 64)
    (hκ : ε + (M + 1) / 2 ^ 48 ≤ 1 / 100) :
    (fftTransform w c plan (twisties sinCos n)).Accurate (2 * n) M D (fftError w (2 * n) M D ε) :=
  fft_accurate hw n hn0 h8 hn c hcpu plan ε hε hplan _ (twisties_accurate sinCos hs n hn0 hn) M D hD hD2 hκ _ (by
    have := fftError_le w (2 * n) M D ε
    push_cast at this
    exact this)

/-- C63. On a processor with AVX-512, with the corresponding feature, 64-bit products are subtracted from the output
instead of being added. -/
theorem C63_avx512_subtracts (n : ℕ) (hn0 : 0 < n) (h8 : 8 ∣ n) (hn : n ≤ 2 ^ 40) (c : Cpu)
    (hcpu : backwardIsa 64 c = .avx512) (plan : Plan) (ε : ℝ) (hε : 0 ≤ ε) (hplan : PlanAccurate n plan ε)
    (sinCos : F64 → F64 × F64) (hs : SinCosAccurate sinCos) (M : ℕ) (D : ℤ) (hD : 1 ≤ D) (hD2 : D ≤ 2 ^ 64)
    (hκ : ε + (M + 1) / 2 ^ 48 ≤ 1 / 100) (out : List (BitVec 64)) (ps : List (List (BitVec 64) × List (BitVec 64)))
    (ho : out.length = 2 * n) (hM : ps.length ≤ M)
    (hps : ∀ x ∈ ps, x.1.length = 2 * n ∧ x.2.length = 2 * n ∧ ∀ c ∈ x.2, |c.toInt| ≤ D) :
    ∃ δ : Rq (BitVec 64) (2 * n), Small (2 * n) (fftError 64 (2 * n) M D ε) δ ∧
      toRq (2 * n) ((fftTransform 64 c plan (twisties sinCos n)).addBack out
        (ps.foldl (fun acc x => (fftTransform 64 c plan (twisties sinCos n)).mulAcc acc
          ((fftTransform 64 c plan (twisties sinCos n)).fwdGgsw x.1)
          ((fftTransform 64 c plan (twisties sinCos n)).fwdDigit x.2)) (fftTransform 64 c plan (twisties sinCos n)).zero)) =
        toRq (2 * n) out - (ps.map fun x => toRq (2 * n) x.1 * toRq (2 * n) x.2).sum + δ := by
  obtain ⟨_, δ, h1, h2⟩ := fft_signed (Or.inr rfl) n hn0 h8 hn c plan ε hε hplan _
    (twisties_accurate sinCos hs n hn0 hn) M D hD hD2 hκ (fftError 64 (2 * n) M D ε) (by
      have := fftError_le 64 (2 * n) M D ε
      push_cast at this
      exact this) out ps ho hM hps
  refine ⟨δ, h1, ?_⟩
  have hsg : backSign 64 c = -1 := by rw [backSign, if_pos ⟨rfl, hcpu⟩]
  rw [h2, hsg, Int.cast_neg, Int.cast_one, neg_one_mul, ← sub_eq_add_neg]

/-- A coefficient of an element with small coefficients. -/
theorem small_coeff {N : ℕ} (hN : 0 < N) {B : ℤ} {p : List (BitVec w)} (hp : p.length = N)
    (h : Small N B (toRq N p)) (i : ℕ) (hi : i < N) : ∃ z : ℤ, |z| ≤ B ∧ p.getD i 0 = (z : BitVec w) := by
  obtain ⟨z, h1, h2, h3⟩ := h
  have e := toRq_inj N hN p _ hp (by simpa using h1) h3
  have hz : i < z.length := by omega
  refine ⟨z[i], h2 _ (List.getElem_mem hz), ?_⟩
  rw [e]
  simp [List.getD_eq_getElem?_getD, hz]

/-- C63 fails on such a processor: the sum of a single product is wrong by more than `2^61`. -/
theorem C63_avx512_violated (n : ℕ) (hn0 : 0 < n) (h8 : 8 ∣ n) (hn : n ≤ 2 ^ 40) (c : Cpu)
    (hcpu : backwardIsa 64 c = .avx512) (plan : Plan) (ε : ℝ) (hε : 0 ≤ ε) (hplan : PlanAccurate n plan ε)
    (sinCos : F64 → F64 × F64) (hs : SinCosAccurate sinCos) (hκ : ε + (1 + 1) / 2 ^ 48 ≤ 1 / 100) (B : ℤ)
    (hB : B + fftError 64 (2 * n) 1 1 ε < 2 ^ 63) :
    ¬(fftTransform 64 c plan (twisties sinCos n)).Accurate (2 * n) 1 1 B := by
  intro hacc
  let out : List (BitVec 64) := List.replicate (2 * n) 0
  let p : List (BitVec 64) := BitVec.ofNat 64 (2 ^ 62) :: List.replicate (2 * n - 1) 0
  let q : List (BitVec 64) := 1#64 :: List.replicate (2 * n - 1) 0
  have hp : p.length = 2 * n := by simp only [p, List.length_cons, List.length_replicate]; omega
  have hq : q.length = 2 * n := by simp only [q, List.length_cons, List.length_replicate]; omega
  have hps : ∀ x ∈ [(p, q)], x.1.length = 2 * n ∧ x.2.length = 2 * n ∧ ∀ c ∈ x.2, |c.toInt| ≤ 1 := by
    intro x hx
    rw [List.mem_singleton] at hx
    subst hx
    refine ⟨hp, hq, fun c hc => ?_⟩
    rcases List.mem_cons.1 hc with h | h
    · rw [h]; decide
    · rw [List.eq_of_mem_replicate h]; decide
  obtain ⟨δ, s1, e1⟩ := C63_avx512_subtracts n hn0 h8 hn c hcpu plan ε hε hplan sinCos hs 1 1 le_rfl (by norm_num)
    (by exact_mod_cast hκ) out [(p, q)] (by simp [out]) (by simp) hps
  obtain ⟨_, δ', s2, e2⟩ := hacc out [(p, q)] (by simp [out]) (by simp) hps
  rw [e1] at e2
  have hq1 : toRq (2 * n) q = 1 := by
    rw [toRq_sum, hq, Finset.sum_eq_single_of_mem 0 (Finset.mem_range.2 (by omega))]
    · simp only [q, List.getD_cons_zero, pow_zero, mul_one]
      exact map_one (AdjoinRoot.of _)
    · intro i hi h0
      have hi := Finset.mem_range.1 hi
      have : q.getD i 0 = 0 := by
        obtain ⟨j, rfl⟩ : ∃ j, i = j + 1 := ⟨i - 1, by omega⟩
        simp only [q, List.getD_cons_succ]
        simp [List.getD_eq_getElem?_getD, show j < 2 * n - 1 by omega]
      rw [this, map_zero, zero_mul]
  have e3 : toRq (2 * n) (Poly.add p p) = δ - δ' := by
    rw [toRq_add _ _ _ rfl]
    simp only [List.map_cons, List.map_nil, List.sum_cons, List.sum_nil, hq1, mul_one, add_zero] at e2
    linear_combination (-1 : Rq (BitVec 64) (2 * n)) * e2
  obtain ⟨z, z1, z2⟩ := small_coeff (by omega) (p := Poly.add p p) (by rw [Poly.add, zipUpdate_length, hp])
    (e3 ▸ Small.sub s1 s2) 0 (by omega)
  have e4 : (Poly.add p p).getD 0 0 = BitVec.ofNat 64 (2 ^ 63) := by
    rw [Poly.add, zipUpdate_getD _ _ _ 0 0 0 (by omega) (by omega)]
    simp only [p, List.getD_cons_zero]
    decide
  rw [e4] at z2
  have z3 := congrArg BitVec.toInt z2
  have z4 : ((z : ℤ) : BitVec 64).toInt = z.bmod (2 ^ 64) := BitVec.toInt_ofInt z
  rw [z4, show (BitVec.ofNat 64 (2 ^ 63)).toInt = -2 ^ 63 by decide] at z3
  have z5 : |z| < 2 ^ 63 := by linarith
  rw [abs_lt] at z5
  rw [Int.bmod_eq_of_le (by omega) (by omega)] at z3
  omega

theorem fftError_nonneg (w N M : ℕ) (D : ℤ) (hD : 0 ≤ D) (ε : ℝ) (hε : 0 ≤ ε) : 0 ≤ fftError w N M D ε := by
  have hD' : (0 : ℝ) ≤ D := by exact_mod_cast hD
  have h := fftError_le w N M D ε
  have h1 : (0 : ℝ) ≤ 2 ^ w * (16 * (ε + (M + 1) / 2 ^ 48) * M * D * N) := by positivity
  have h2 : (0 : ℝ) ≤ ((fftError w N M D ε : ℤ) : ℝ) := by linarith
  exact_mod_cast h2

/-- C27, C31 and C63 for the Fourier backend, without hypothesis on the computation of products: the blind rotation
and the extraction return a ciphertext whose phase is the table value at the switched phase, up to the bounds. -/
theorem C63_bootstrap_partial (hw : w = 32 ∨ w = 64) (logN k b l : ℕ) (h4 : 4 ≤ logN) (h40 : logN ≤ 40)
    (hlog : logN + 2 < w) (c : Cpu) (hcpu : w = 64 → backwardIsa 64 c ≠ .avx512) (plan : Plan) (ε : ℝ) (hε : 0 ≤ ε)
    (hplan : PlanAccurate (2 ^ (logN - 1)) plan ε) (sinCos : F64 → F64 × F64) (hsc : SinCosAccurate sinCos)
    (hκ : ε + ((l * (k + 1) : ℕ) + 1) / 2 ^ 48 ≤ 1 / 100) (S E : ℤ) (h : ValidParams w b l) (hS0 : 0 ≤ S) (hE : 0 ≤ E)
    (lweKey key bsk acc v lweIn lweOut : List (BitVec w)) (hk : KeyFits (2 ^ logN) k key) (hS : KeyBound S key)
    (hs : Lwe.BinaryKey lweKey) (hbsk : BskEnc (2 ^ logN) k b l lweKey key bsk E) (hacc : CtFits (2 ^ logN) k acc)
    (hv : v.length = 2 ^ logN) (hphase : glwePhase (2 ^ logN) k key acc = toRq (2 ^ logN) v)
    (hin : Lwe.Fits lweKey lweIn) (hout : lweOut.length = k * 2 ^ logN + 1) :
    ∃ r, bootstrap (cmuxFft (fftTransform w c plan (twisties sinCos (2 ^ (logN - 1)))) (2 ^ logN) k b l) (2 ^ logN) logN
          lweOut lweIn acc
          (bskGgsws (fftTransform w c plan (twisties sinCos (2 ^ (logN - 1)))) (2 ^ logN) k l bsk) = some r ∧
      Lwe.Fits key r ∧
      ∀ d, IsSwitchedPhase logN lweKey lweIn d →
        |(Lwe.phase key r - ext (2 ^ logN) v d).toInt| ≤
          lweKey.length * epBound w (2 ^ logN) k b l S E (fftError w (2 ^ logN) (l * (k + 1)) (2 ^ (b - 1)) ε) 1 := by
  have e : 2 * 2 ^ (logN - 1) = 2 ^ logN := by rw [← pow_succ']; congr 1; omega
  have hb : b ≤ 64 := by
    have h1 := h.3
    have h2 : 1 * b ≤ l * b := Nat.mul_le_mul_right b h.2
    have h3 : b * l = l * b := Nat.mul_comm b l
    omega
  have hacc' := C63_products_partial hw (2 ^ (logN - 1)) (by positivity)
    (by rw [show 8 = 2 ^ 3 from rfl]; exact pow_dvd_pow 2 (by omega)) (Nat.pow_le_pow_right (by norm_num) (by omega)) c hcpu plan ε
    hε hplan sinCos hsc (l * (k + 1)) (2 ^ (b - 1)) (one_le_pow₀ (by norm_num))
    (pow_le_pow_right₀ (by norm_num) (by omega)) hκ
  rw [e] at hacc'
  obtain ⟨r, h1, _, h2, h3⟩ := C31_bootstrap _ (2 ^ logN) k b l logN rfl hlog _ _ S E hacc' le_rfl h
    (fftError_nonneg _ _ _ _ (by positivity) _ hε) hS0 hE lweKey key bsk acc v lweIn lweOut hk hS hs hbsk hacc hv hphase
    hin hout
  exact ⟨r, h1, h2, h3⟩

end Verif.Fft
