import Verif.Fft.Ggsw
import Verif.Fft.Accurate
import Verif.Fft.Ideal
import Verif.Fft.Twist
import Verif.Pbs.CallsProps
/-
C118: a GGSW ciphertext taken to the Fourier domain and back.

Vocabulary: `PlanAccurate`, `SinCosAccurate` (Verif.Fft.Spec): what is assumed of the crate concrete_fft and of
`f64::sin_cos`; `GgswWf`, `Supported` (Verif.Pbs.CallsSpec).
-/
set_option linter.unusedSectionVars false
namespace Verif.Fft
open Verif.Float Verif.Encode Finset Verif.Poly Verif.BV Verif.Engine Verif.Entity Verif.Pbs
open Verif.Csprng (Build)

variable {w : ℕ}

/-- A float close enough to a torus element other than the lowest one is converted to it. -/
theorem fromTorus_exact (hw0 : 1 ≤ w) (hw : w ≤ 128) (q : ℚ) (hq : Rep q) (x : BitVec w)
    (hx : x.toInt ≠ -2 ^ (w - 1)) (h : |(2 ^ w * q - x.toInt : ℚ)| < 1 / 2) : fromTorus w (.fin q) = x := by
  obtain ⟨r, v, -, -, -, h1, h2, h3⟩ := fromTorus_spec w hw0 hw q hq
  have hv : v = x.toInt - r * 2 ^ w := by
    have h4 : |((x.toInt - r * 2 ^ w - v : ℤ) : ℚ)| < 1 := by
      push_cast
      rw [abs_lt] at h ⊢
      rw [abs_le] at h1
      constructor <;> nlinarith [h1.1, h1.2, h.1, h.2]
    have h5 : |x.toInt - r * 2 ^ w - v| < 1 := by exact_mod_cast h4
    have := Int.abs_lt_one_iff.1 h5
    omega
  have hpow : (2 : ℤ) ^ w = 2 * 2 ^ (w - 1) := by rw [← pow_succ']; congr 1; omega
  have hp : (0 : ℤ) < 2 ^ (w - 1) := by positivity
  have hlo : -2 ^ (w - 1) ≤ x.toInt := BitVec.le_toInt x
  have hhi : x.toInt < 2 ^ (w - 1) := BitVec.toInt_lt
  have hne : v ≠ 2 ^ (w - 1) := by
    intro e
    rw [e, hpow] at hv
    rcases lt_or_ge r 0 with hr | hr
    · have : r * (2 * 2 ^ (w - 1)) ≤ -1 * (2 * 2 ^ (w - 1)) := mul_le_mul_of_nonneg_right (by omega) (by omega)
      omega
    · have : 0 ≤ r * (2 * 2 ^ (w - 1)) := mul_nonneg hr (by omega)
      omega
  rw [h3, if_neg hne, hv, ofInt_eq_cast]
  push_cast
  have e0 : (2 : BitVec w) ^ w = 0 := by
    have := two_pow_self (w := w)
    push_cast at this
    exact this
  rw [e0, mul_zero, sub_zero, ← ofInt_eq_cast]
  exact BitVec.ofInt_toInt

/-- The sum of the moduli, from the norm. -/
theorem sum_le_l2 (n : ℕ) (F : ℕ → ℂ) : ∑ k ∈ range n, ‖F k‖ ≤ Real.sqrt n * l2 n F := by
  have h := sum_mul_le n (fun _ => (1 : ℂ)) F
  simp only [norm_one, one_mul] at h
  have h1 : l2 n (fun _ => (1 : ℂ)) ≤ Real.sqrt n * 1 := l2_le_of_le (by norm_num) fun k _ => by rw [norm_one]
  rw [mul_one] at h1
  exact h.trans (mul_le_mul_of_nonneg_right h1 (l2_nonneg n F))

/-- There and back on one polynomial, before the conversion to integers. -/
theorem back_close {n : ℕ} {plan : Plan} {ρ : ℕ → ℂ} {ε κ : ℝ} (hc : Consts n ε κ) (hρ : Roots n ρ)
    (hf : FwdOk n plan ρ ε) (hi : InvOk n plan ρ ε) (hw : w ≤ 128) (tw : List C64) (ht : TwistAccurate n tw)
    (p : List (BitVec w)) (hp : p.length = 2 * n) :
    (plan.inv (forwardAsTorus plan tw p)).length = n ∧ ∀ j, j < n →
      Close (backElt n (at' (plan.inv (forwardAsTorus plan tw p)) j) (at' tw j))
        (packed (1 / 2 ^ w) (p.getD j 0) (p.getD (n + j) 0)) (13 * κ * Real.sqrt n) := by
  have hF := torus_fwd hc hρ hf hw tw ht p hp
  have hN : (1 : ℝ) ≤ n := by exact_mod_cast hc.n0
  have hs1 : 1 ≤ Real.sqrt n := Real.one_le_sqrt.2 hN
  have hsn : Real.sqrt n ≤ n := by
    have := sqrt_mul_self' n
    nlinarith
  have hκ0 : 0 ≤ κ := hc.eps0.trans hc.eps
  have hQ1 : 1 ≤ Real.sqrt n * n := by nlinarith
  have hQ2 : Real.sqrt n * n ≤ 2 ^ 199 := by
    have h40 : (n : ℝ) ≤ 2 ^ 40 := by exact_mod_cast hc.n40
    calc Real.sqrt n * n ≤ 2 ^ 40 * 2 ^ 40 := mul_le_mul (hsn.trans h40) h40 (by linarith) (by positivity)
      _ = 2 ^ 80 := by norm_num
      _ ≤ 2 ^ 199 := pow_mono (by norm_num)
  have hS : ∑ k ∈ range n, ‖dft n ρ (pack (1 / 2 ^ w) n (xi n) (p.map BitVec.toInt)) k‖ ≤ Real.sqrt n * n := by
    refine (sum_le_l2 n _).trans (mul_le_mul_of_nonneg_left ?_ (by linarith))
    have := hF.bound
    rwa [one_mul] at this
  have hoS : ∑ k ∈ range n, ‖vals (forwardAsTorus plan tw p) k -
      dft n ρ (pack (1 / 2 ^ w) n (xi n) (p.map BitVec.toInt)) k‖ ≤ 8 * κ * (Real.sqrt n * n) := by
    refine (sum_le_l2 n _).trans ?_
    have h1 := mul_le_mul_of_nonneg_left hF.err (show 0 ≤ Real.sqrt n by linarith)
    have h2 : 0 ≤ κ * (Real.sqrt n * n) := mul_nonneg hκ0 (by linarith)
    refine h1.trans ?_
    nlinarith
  obtain ⟨il, ifin, ierr⟩ := inverse_err hc hρ hi hQ1 hQ2 _ hF.len hF.fin _ hS hoS
  refine ⟨il, fun j hj => ?_⟩
  obtain ⟨e1, e2⟩ := ierr j hj
  rw [hρ.idft_dft _ hj, pack_eq] at e1 e2
  have h := (back_err hc hQ1 hQ2 _ _ _ (xi n ^ j) (ifin j hj) (ht.2 j hj).1 (norm_xi_pow n j) (ht.2 j hj).2 e1 e2).1
  have e : 13 * κ * (Real.sqrt n * n) / n = 13 * κ * Real.sqrt n := by
    have : (n : ℝ) ≠ 0 := by linarith
    field_simp
  rwa [e] at h

/-- The conversion of one coefficient. -/
theorem elem_back (hw0 : 1 ≤ w) (hw : w ≤ 128) (q : ℚ) (hq : Rep q) (x : BitVec w) (e : ℝ)
    (h : |(q : ℝ) - x.toInt / 2 ^ w| ≤ e) :
    (∃ d : ℤ, fromTorus w (.fin q) = x + (d : BitVec w) ∧ |(d : ℝ)| ≤ 2 ^ w * e + 3 / 2) ∧
    (2 ^ w * e < 1 / 2 → x.toInt ≠ -2 ^ (w - 1) → fromTorus w (.fin q) = x) := by
  have hp : (0 : ℝ) < 2 ^ w := by positivity
  have h2 : |2 ^ w * (q : ℝ) - x.toInt| ≤ 2 ^ w * e := by
    have : 2 ^ w * (q : ℝ) - x.toInt = 2 ^ w * ((q : ℝ) - x.toInt / 2 ^ w) := by field_simp
    rw [this, abs_mul, abs_of_pos hp]
    exact mul_le_mul_of_nonneg_left h hp.le
  constructor
  · obtain ⟨K, h3, h4⟩ := near_real (fromTorus_near w hw0 hw q hq) le_rfl h
    refine ⟨K - x.toInt, ?_, ?_⟩
    · rw [h3]
      push_cast
      rw [← ofInt_eq_cast w x.toInt, BitVec.ofInt_toInt]
      ring
    · push_cast
      rwa [mul_div_cancel₀ _ hp.ne'] at h4
  · intro he hx
    apply fromTorus_exact hw0 hw q hq x hx
    have h5 := h2.trans_lt he
    have h6 : ((|(2 ^ w * q - x.toInt : ℚ)| : ℚ) : ℝ) < ((1 / 2 : ℚ) : ℝ) := by
      push_cast
      exact h5
    exact_mod_cast h6

/-- There and back on one polynomial. -/
theorem back_poly {n : ℕ} {plan : Plan} {ρ : ℕ → ℂ} {ε κ : ℝ} (hc : Consts n ε κ) (hρ : Roots n ρ)
    (hf : FwdOk n plan ρ ε) (hi : InvOk n plan ρ ε) (hw0 : 1 ≤ w) (hw : w ≤ 128) (tw : List C64)
    (ht : TwistAccurate n tw) (p : List (BitVec w)) (hp : p.length = 2 * n) :
    ∃ r : ℕ → BitVec w, backwardAsTorus w plan tw (forwardAsTorus plan tw p) = (List.range (2 * n)).map r ∧
      ∀ j, j < 2 * n →
        (∃ d : ℤ, r j = p.getD j 0 + (d : BitVec w) ∧ |(d : ℝ)| ≤ 2 ^ w * (13 * κ * Real.sqrt n) + 3 / 2) ∧
        (2 ^ w * (13 * κ * Real.sqrt n) < 1 / 2 → (p.getD j 0).toInt ≠ -2 ^ (w - 1) → r j = p.getD j 0) := by
  obtain ⟨il, h⟩ := back_close hc hρ hf hi hw tw ht p hp
  unfold backwardAsTorus
  generalize plan.inv (forwardAsTorus plan tw p) = b at *
  let z : ℕ → C64 := fun j => backElt n (at' b j) (at' tw j)
  have hz : List.zipWith (backElt b.length) b tw = (List.range n).map z := by
    rw [il, zipWith_range _ _ _ n ⟨.fin 0, .fin 0⟩ ⟨.fin 0, .fin 0⟩ il ht.1]
  refine ⟨fun k => if k < n then fromTorus w (z k).re else fromTorus w (z (k - n)).im, ?_, ?_⟩
  · dsimp only [convertBackwardTorus]
    rw [hz, List.map_map, List.map_map, getD_range_append]
    rfl
  · intro k hk
    have hre : ∀ j, (packed (1 / 2 ^ w) (p.getD j 0) (p.getD (n + j) 0)).re = ((p.getD j 0).toInt : ℝ) / 2 ^ w := by
      intro j
      rw [packed, Complex.re_ofReal_mul, one_div, div_eq_inv_mul]
      simp
    have him : ∀ j, (packed (1 / 2 ^ w) (p.getD j 0) (p.getD (n + j) 0)).im =
        ((p.getD (n + j) 0).toInt : ℝ) / 2 ^ w := by
      intro j
      rw [packed, Complex.im_ofReal_mul, one_div, div_eq_inv_mul]
      simp
    by_cases hkn : k < n
    · obtain ⟨a, b, e, ha, -, e1, -⟩ := close_parts (h k hkn)
      rw [hre] at e1
      simp only [if_pos hkn, z, e]
      exact elem_back hw0 hw a ha _ _ e1
    · obtain ⟨a, b, e, -, hb, -, e1⟩ := close_parts (h (k - n) (by omega))
      rw [him, show n + (k - n) = k by omega] at e1
      simp only [if_neg hkn, z, e]
      exact elem_back hw0 hw b hb _ _ e1

theorem zipUpdate_overwrite {α β : Type} (f : β → α) : ∀ (os : List α) (ps : List β), os.length = ps.length →
    zipUpdate (fun _ p => f p) os ps = ps.map f
  | [], [], _ => rfl
  | [], _ :: _, h => by simp at h
  | _ :: _, [], h => by simp at h
  | _ :: os, p :: ps, h => by
    rw [zipUpdate, zipUpdate_overwrite f os ps (by simpa using h)]
    rfl

/-- C118, the checks of the conversion from the Fourier domain, in both builds: a polynomial size that is not supported is
reported, then the first of GLWE dimension, polynomial size, level count and base log that differs; otherwise
the call returns a ciphertext with the dimensions of the output. It does not panic. -/
theorem C118_checks (m : Build) (c : Cpu) (plan : Plan) (tw : List C64) (out : Ggsw (BitVec w))
    (x : FourierGgsw (fftTransform w c plan tw)) {k k' l : ℕ} (h : GgswWf out k l) (hx : x.glweSize = k' + 1)
    (hk' : k' + 1 < 2 ^ 64) :
    (¬Supported x.polySize → discardConvertBack m c plan tw out x = .err .unsupportedPolynomialSize) ∧
    (Supported x.polySize →
      (k' ≠ k → discardConvertBack m c plan tw out x = .err (.generic .glweDimensionMismatch)) ∧
      (k' = k → x.polySize ≠ out.polySize →
        discardConvertBack m c plan tw out x = .err (.generic .polynomialSizeMismatch)) ∧
      (k' = k → x.polySize = out.polySize → x.level ≠ l →
        discardConvertBack m c plan tw out x = .err (.generic .decompositionLevelCountMismatch)) ∧
      (k' = k → x.polySize = out.polySize → x.level = l → x.baseLog ≠ out.baseLog →
        discardConvertBack m c plan tw out x = .err (.generic .decompositionBaseLogMismatch)) ∧
      (k' = k → x.polySize = out.polySize → x.level = l → x.baseLog = out.baseLog →
        ∃ r, discardConvertBack m c plan tw out x = .ok r ∧ r.polySize = out.polySize ∧ r.glweSize = out.glweSize ∧
          r.baseLog = out.baseLog ∧ r.tensor = fillBackward plan tw x.polySize out.tensor x.polys)) := by
  refine ⟨fun hs => fftThen_bad hs _, fun hs => ?_⟩
  have hd : x.dims _ m = some ⟨k', x.polySize, x.level, x.baseLog⟩ := by
    rw [FourierGgsw.dims, hx, subU_ok m (by omega) hk']; rfl
  rw [discardConvertBack, fftThen_ok hs, hd, h.dims m]
  simp only [Checks.ggswCiphertextDiscardingConversion, checks_bad, checks_nil, bne_iff_ne, ne_eq]
  refine ⟨fun h1 => ?_, fun h1 h2 => ?_, fun h1 h2 h3 => ?_, fun h1 h2 h3 h4 => ?_, fun h1 h2 h3 h4 => ?_⟩
  · rw [if_pos h1]; rfl
  · rw [if_neg (not_not.2 h1), if_pos h2]; rfl
  · rw [if_neg (not_not.2 h1), if_neg (not_not.2 h2), if_pos h3]; rfl
  · rw [if_neg (not_not.2 h1), if_neg (not_not.2 h2), if_neg (not_not.2 h3), if_pos h4]; rfl
  · rw [if_neg (not_not.2 h1), if_neg (not_not.2 h2), if_neg (not_not.2 h3), if_neg (not_not.2 h4)]
    exact ⟨_, rfl, rfl, rfl, rfl, rfl⟩

/-- C118: a GGSW ciphertext converted to the Fourier domain and back into a ciphertext of the same dimensions, whatever
that one held: both calls succeed, in both builds and on every processor, and each coefficient comes back
with an error of at most `13 (ε + 2^-48) sqrt (N / 2)` in units of the torus, plus three halves of a unit in the last
place. As soon as the first term is below half a unit in the last place, every coefficient other than the lowest of the
signed range comes back exactly. -/
theorem C118_round_trip (hw0 : 1 ≤ w) (hw : w ≤ 128) (m : Build) (c : Cpu) (x out : Ggsw (BitVec w)) {k l : ℕ}
    (hx : GgswWf x k l) (ho : GgswWf out k l) (hN : x.polySize = out.polySize) (hb : x.baseLog = out.baseLog)
    (hs : Supported x.polySize) (hmax : x.polySize ≤ 2 ^ 41) (plan : Plan) (ε : ℝ) (hε : 0 ≤ ε)
    (hκ : ε + 1 / 2 ^ 48 ≤ 1 / 100) (hplan : PlanAccurate (x.polySize / 2) plan ε)
    (sinCos : F64 → F64 × F64) (hsc : SinCosAccurate sinCos) :
    ∃ f r, convertGgsw (fftTransform w c plan (twisties sinCos (x.polySize / 2))) m x = .ok f ∧
      discardConvertBack m c plan (twisties sinCos (x.polySize / 2)) out f = .ok r ∧
      r.polySize = x.polySize ∧ r.glweSize = x.glweSize ∧ r.baseLog = x.baseLog ∧
      r.tensor.length = x.tensor.length ∧
      ∀ i, i < x.tensor.length →
        (∃ d : ℤ, r.tensor.getD i 0 = x.tensor.getD i 0 + (d : BitVec w) ∧
          |(d : ℝ)| ≤ 2 ^ w * (13 * (ε + 1 / 2 ^ 48) * Real.sqrt ((x.polySize / 2 : ℕ) : ℝ)) + 3 / 2) ∧
        (2 ^ w * (13 * (ε + 1 / 2 ^ 48) * Real.sqrt ((x.polySize / 2 : ℕ) : ℝ)) < 1 / 2 →
          (x.tensor.getD i 0).toInt ≠ -2 ^ (w - 1) → r.tensor.getD i 0 = x.tensor.getD i 0) := by
  obtain ⟨n, hn⟩ : ∃ n, x.polySize = 2 * n := by
    obtain ⟨e, he, h⟩ := hs
    exact ⟨2 ^ (e - 1), by rw [h, ← pow_succ']; congr 1; omega⟩
  have hn2 : x.polySize / 2 = n := by omega
  rw [hn2] at hplan ⊢
  have hn0 : 0 < n := by have := hx.poly; omega
  have hn40 : n ≤ 2 ^ 40 := by omega
  have hc := consts_of n hn0 hn40 ε hε 0 (by simpa using hκ)
  simp only [Nat.cast_zero, zero_add] at hc
  obtain ⟨ρ, hρ, hf, hi⟩ := hplan
  have ht := twisties_accurate sinCos hsc n hn0 hn40
  generalize twisties sinCos n = tw at *
  obtain ⟨f, h1, -, -⟩ := (C108_convert_ggsw (fftTransform w c plan tw) m x hx).2 hs
  obtain ⟨-, rfl⟩ := convertGgsw_eq _ hx h1
  obtain ⟨r, r1, r2, r3, r4, r5⟩ := ((C118_checks m c plan tw out
    ⟨convert (fftTransform w c plan tw) x.polySize x.tensor, x.polySize, k + 1, x.baseLog, l⟩ ho rfl hx.small).2 hs).2.2.2.2
      rfl hN rfl hb
  refine ⟨_, r, h1, r1, r2.trans hN.symm, r3.trans (ho.size.trans hx.size.symm), r4.trans hb.symm, ?_⟩
  have hlx : x.tensor.length = l * ((k + 1) * (k + 1)) * (2 * n) := by rw [hx.len, hn]; ring
  have hlo : out.tensor.length = l * ((k + 1) * (k + 1)) * (2 * n) := by rw [ho.len, ← hN, hn]; ring
  have hpos : 0 < 2 * n := by omega
  generalize l * ((k + 1) * (k + 1)) = M at hlx hlo
  have hpoly := fun p hp => back_poly hc hρ hf hi hw0 hw tw ht (w := w) p hp
  have hr : r.tensor = ((chunks (2 * n) x.tensor).map
      fun p => backwardAsTorus w plan tw (forwardAsTorus plan tw p)).flatten := by
    rw [r5]
    have e := zipUpdate_overwrite (fun f : Option (List C64) => backwardAsTorus w plan tw (f.getD []))
      (chunks (2 * n) out.tensor) ((chunks (2 * n) x.tensor).map fun p => some (forwardAsTorus plan tw p))
      (by rw [List.length_map, chunks_length _ hpos _ _ hlo, chunks_length _ hpos _ _ hlx])
    rw [List.map_map] at e
    change fillBackward plan tw x.polySize out.tensor
      ((chunks x.polySize x.tensor).map fun p => some (forwardAsTorus plan tw p)) = _
    rw [hn]
    exact congrArg List.flatten e
  have hul : ∀ p ∈ (chunks (2 * n) x.tensor).map fun p => backwardAsTorus w plan tw (forwardAsTorus plan tw p),
      p.length = 2 * n := by
    intro p hp
    obtain ⟨q, hq, rfl⟩ := List.mem_map.1 hp
    obtain ⟨g, hg, -⟩ := hpoly q (Glwe.chunks_len _ hpos _ _ hlx q hq)
    rw [hg]
    simp
  refine ⟨?_, fun i hi => ?_⟩
  · rw [hr, flatten_length_uniform _ _ hul, List.length_map, chunks_length _ hpos _ _ hlx, hlx]
  · have hq : i / (2 * n) < M := Nat.div_lt_of_lt_mul (by rw [Nat.mul_comm, ← hlx]; exact hi)
    have hm : i % (2 * n) < 2 * n := Nat.mod_lt _ hpos
    have hi' : i / (2 * n) * (2 * n) + i % (2 * n) = i := Nat.div_add_mod' _ _
    have hbl : (block (2 * n) x.tensor (i / (2 * n))).length = 2 * n :=
      block_length _ _ _ (by rw [hlx]; exact Nat.mul_le_mul_right _ hq)
    have hbr : block (2 * n) r.tensor (i / (2 * n)) =
        backwardAsTorus w plan tw (forwardAsTorus plan tw (block (2 * n) x.tensor (i / (2 * n)))) := by
      rw [hr]
      apply block_flatten _ hpos _ hul
      rw [chunks_eq _ hpos M _ hlx, List.map_map, List.getElem?_map, List.getElem?_range hq]
      rfl
    obtain ⟨g, hg, hgs⟩ := hpoly _ hbl
    have e1 : r.tensor.getD i 0 = g (i % (2 * n)) := by
      conv_lhs => rw [← hi']
      rw [← block_getD _ _ _ _ _ hm, hbr, hg, List.getD_eq_getElem?_getD, List.getElem?_map, List.getElem?_range hm]
      rfl
    have e2 : x.tensor.getD i 0 = (block (2 * n) x.tensor (i / (2 * n))).getD (i % (2 * n)) 0 := by
      rw [block_getD _ _ _ _ _ hm, hi']
    rw [e1, e2]
    exact hgs _ hm

/-- Two ciphertexts with close coefficients have close phases. -/
theorem pair_error {N k : ℕ} (hN : 0 < N) (B S : ℤ) (key ct ct' : List (BitVec w)) (hk : Glwe.KeyFits N k key)
    (hS : KeyBound S key) (hc : Glwe.CtFits N k ct) (hc' : Glwe.CtFits N k ct')
    (h : ∀ i, i < (k + 1) * N → |(ct'.getD i 0 - ct.getD i 0).toInt| ≤ B) :
    ∃ ρ : Rq (BitVec w) N, Small N ((k * (N * S) + 1) * B) ρ ∧
      Glwe.glwePhase N k key ct' = Glwe.glwePhase N k key ct + ρ := by
  have hbl : ∀ p, p < k + 1 → (block N ct p).length = N ∧ (block N ct' p).length = N := fun p hp =>
    ⟨Glwe.block_len N _ p _ hc hp, Glwe.block_len N _ p _ hc' hp⟩
  refine ⟨(toRq N (block N ct' k) - toRq N (block N ct k)) -
    ∑ i ∈ Finset.range k, (toRq N (block N ct' i) - toRq N (block N ct i)) * toRq N (block N key i),
    small_key_comb hN hk hS (fun p => toRq N (block N ct' p) - toRq N (block N ct p)) ?_, ?_⟩
  · intro p hp
    obtain ⟨l1, l2⟩ := hbl p (by omega)
    rw [← toRq_sub N _ _ (by rw [l1, l2])]
    apply small_toRq N _ (by rw [Poly.sub, zipUpdate_length, l2])
    intro c hc0
    obtain ⟨i, hi, rfl⟩ := List.getElem_of_mem hc0
    have hi' : i < N := by rw [Poly.sub, zipUpdate_length, l2] at hi; exact hi
    have e : (Poly.sub (block N ct' p) (block N ct p))[i] =
        ct'.getD (p * N + i) 0 - ct.getD (p * N + i) 0 := by
      rw [← block_getD N ct' p i 0 hi', ← block_getD N ct p i 0 hi', ← List.getD_eq_getElem _ 0 hi, Poly.sub,
        zipUpdate_getD _ _ _ i 0 0 (by omega) (by omega)]
    rw [e]
    apply h
    have : (p + 1) * N ≤ (k + 1) * N := Nat.mul_le_mul_right N (by omega)
    rw [Nat.add_mul, Nat.one_mul] at this
    omega
  · rw [Glwe.glwePhase, Glwe.glwePhase]
    simp only [sub_mul, Finset.sum_sub_distrib]
    ring

/-- The error of `C118_round_trip` on each coefficient, in units in the last place. -/
noncomputable def tripError (w N : ℕ) (ε : ℝ) : ℤ :=
  ⌊2 ^ w * (13 * (ε + 1 / 2 ^ 48) * Real.sqrt ((N / 2 : ℕ) : ℝ)) + 3 / 2⌋

/-- C118: what comes back is still a GGSW encryption of the same message under the same key: each row gains an error of
at most `(k N S + 1)` times that of a coefficient, for a key with coefficients of absolute value at most `S`. -/
theorem C118_encrypts (hw0 : 1 ≤ w) (hw : w ≤ 128) (m : Build) (c : Cpu) (x out : Ggsw (BitVec w)) {k l : ℕ}
    (hx : GgswWf x k l) (ho : GgswWf out k l) (hN : x.polySize = out.polySize) (hb : x.baseLog = out.baseLog)
    (hs : Supported x.polySize) (hmax : x.polySize ≤ 2 ^ 41) (plan : Plan) (ε : ℝ) (hε : 0 ≤ ε)
    (hκ : ε + 1 / 2 ^ 48 ≤ 1 / 100) (hplan : PlanAccurate (x.polySize / 2) plan ε)
    (sinCos : F64 → F64 × F64) (hsc : SinCosAccurate sinCos) (S : ℤ) (key : List (BitVec w))
    (hk : Glwe.KeyFits x.polySize k key) (hS : KeyBound S key) (μ : Rq (BitVec w) x.polySize)
    (err : ℕ → ℕ → Rq (BitVec w) x.polySize) (hg : Glwe.GgswEnc x.polySize k x.baseLog l key x.tensor μ err) :
    ∃ f r, convertGgsw (fftTransform w c plan (twisties sinCos (x.polySize / 2))) m x = .ok f ∧
      discardConvertBack m c plan (twisties sinCos (x.polySize / 2)) out f = .ok r ∧
      ∃ err', Glwe.GgswEnc x.polySize k x.baseLog l key r.tensor μ err' ∧
        ∀ j p, j < l → p ≤ k →
          Small x.polySize ((k * (x.polySize * S) + 1) * tripError w x.polySize ε) (err' j p - err j p) := by
  obtain ⟨f, r, h1, h2, -, -, -, h3, h4⟩ := C118_round_trip hw0 hw m c x out hx ho hN hb hs hmax plan ε hε hκ hplan sinCos hsc
  refine ⟨f, r, h1, h2, fun j p => Glwe.glwePhase x.polySize k key (Glwe.ggswRow x.polySize k r.tensor j p) -
    μ * 2 ^ (w - x.baseLog * (j + 1)) * Glwe.rowFactor x.polySize k key p, ⟨h3.trans hx.len, fun j _ p _ => by ring⟩, ?_⟩
  intro j p hj hp
  have hrow : ∀ t : List (BitVec w), t.length = l * ((k + 1) * ((k + 1) * x.polySize)) →
      Glwe.CtFits x.polySize k (Glwe.ggswRow x.polySize k t j p) ∧
      ∀ i, i < (k + 1) * x.polySize → (Glwe.ggswRow x.polySize k t j p).getD i 0 =
        t.getD (j * ((k + 1) * ((k + 1) * x.polySize)) + (p * ((k + 1) * x.polySize) + i)) 0 := by
    intro t ht
    have hp1 : (p + 1) * ((k + 1) * x.polySize) ≤ (k + 1) * ((k + 1) * x.polySize) := Nat.mul_le_mul_right _ (by omega)
    have l1 : (block ((k + 1) * ((k + 1) * x.polySize)) t j).length = (k + 1) * ((k + 1) * x.polySize) :=
      block_length _ _ _ (by rw [ht]; exact Nat.mul_le_mul_right _ hj)
    refine ⟨block_length _ _ _ (by rw [l1]; exact hp1), fun i hi => ?_⟩
    rw [Nat.add_mul, Nat.one_mul] at hp1
    rw [Glwe.ggswRow, block_getD _ _ _ _ _ hi, block_getD _ _ _ _ _ (by omega)]
  obtain ⟨a1, a2⟩ := hrow x.tensor hx.len
  obtain ⟨b1, b2⟩ := hrow r.tensor (h3.trans hx.len)
  obtain ⟨ρ, c1, c2⟩ := pair_error hx.poly (tripError w x.polySize ε) S key _ _ hk hS a1 b1 (by
    intro i hi
    rw [a2 i hi, b2 i hi]
    have hlt : j * ((k + 1) * ((k + 1) * x.polySize)) + (p * ((k + 1) * x.polySize) + i) < x.tensor.length := by
      have q1 : (p + 1) * ((k + 1) * x.polySize) ≤ (k + 1) * ((k + 1) * x.polySize) := Nat.mul_le_mul_right _ (by omega)
      have q2 : (j + 1) * ((k + 1) * ((k + 1) * x.polySize)) ≤ l * ((k + 1) * ((k + 1) * x.polySize)) :=
        Nat.mul_le_mul_right _ (by omega)
      rw [Nat.add_mul, Nat.one_mul] at q1 q2
      rw [hx.len]
      omega
    obtain ⟨⟨d, d1, d2⟩, -⟩ := h4 _ hlt
    rw [d1, add_sub_cancel_left]
    refine (abs_toInt_le d).trans (Int.le_floor.2 ?_)
    push_cast
    exact d2)
  beta_reduce
  rw [c2, hg.2 j hj p hp]
  convert c1 using 1
  ring

/-- The hypotheses of `C118_round_trip` are met, with a plan and a sine accurate to one rounding, and with them
32-bit coefficients of polynomials of 2048 coefficients come back exactly. -/
example : ∃ (plan : Plan) (sinCos : F64 → F64 × F64) (ε : ℝ), 0 ≤ ε ∧ PlanAccurate 1024 plan ε ∧ SinCosAccurate sinCos ∧
    ε + 1 / 2 ^ 48 ≤ 1 / 100 ∧ Supported 2048 ∧
    2 ^ 32 * (13 * (ε + 1 / 2 ^ 48) * Real.sqrt ((2048 / 2 : ℕ) : ℝ)) < 1 / 2 := by
  refine ⟨idealPlan 1024, idealSinCos, 2 * u53, by linarith [u53_pos], idealPlan_accurate 1024 (by norm_num) (by norm_num),
    idealSinCos_accurate, by unfold u53; norm_num, ⟨11, by norm_num, by norm_num⟩, ?_⟩
  have h : Real.sqrt ((2048 / 2 : ℕ) : ℝ) = 32 := by
    rw [show ((2048 / 2 : ℕ) : ℝ) = 32 ^ 2 by norm_num]
    exact Real.sqrt_sq (by norm_num)
  rw [h]
  unfold u53
  norm_num

/-- A noiseless GGSW ciphertext of one, which satisfies the hypotheses of `C118_encrypts`. -/
example : GgswWf (⟨gadgetGgsw 32 1 4 2 1, 32, 2, 4⟩ : Ggsw (BitVec 32)) 1 2 ∧ Supported 32 ∧
    GgswWf (⟨List.replicate 256 7, 32, 2, 4⟩ : Ggsw (BitVec 32)) 1 2 ∧
    Glwe.KeyFits 32 1 (List.replicate 32 1#32) ∧ KeyBound 1 (List.replicate 32 1#32) ∧
    Glwe.GgswEnc 32 1 4 2 (List.replicate 32 1#32) (gadgetGgsw 32 1 4 2 1) (AdjoinRoot.of _ (1 : BitVec 32))
      (fun _ _ => 0) := by
  have hg := gadget_enc 32 1 4 2 (by norm_num) (List.replicate 32 1#32) (1 : BitVec 32)
  refine ⟨⟨by decide, by decide, rfl, hg.1, by decide⟩, ⟨5, by norm_num, by norm_num⟩,
    ⟨by decide, by decide, rfl, List.length_replicate, by decide⟩, rfl, ?_, hg⟩
  intro x hx
  rw [List.eq_of_mem_replicate hx]
  decide

end Verif.Fft
