import Verif.Encode.DataLemmas
import Verif.Session.DecryptProps
import Verif.Random.GaussProps
import Verif.Tensor.Props
/-
C111: numbers that go through creation, encoding, encryption, decryption, decoding and retrieval.
-/
set_option exponentiation.threshold 2000
namespace Verif.Encode
open Verif.Float Verif.Engine Verif.Random Verif.Random.Gauss

/-! ### Data in and out -/

/-- C111. Retrieving what was created gives it back, in place or not; an empty vector and an output of another length are
reported, and no call panics. -/
theorem C111_data {α : Type} (x out : α) (xs outs : List α) :
    (∃ c, createValue x = .ok c ∧ retrieveValue c = .ok x ∧ retrieveValueInto out c = .ok x) ∧
    (xs = [] → createCleartextVector xs = .err .emptyInput ∧ createPlaintextVector xs = .err .emptyInput) ∧
    (xs ≠ [] → ∃ v, createCleartextVector xs = .ok v ∧ createPlaintextVector xs = .ok v ∧ retrieveVector v = .ok xs ∧
      (outs.length = xs.length → retrieveCleartextVectorInto outs v = .ok xs ∧ retrievePlaintextVectorInto outs v = .ok xs) ∧
      (outs.length ≠ xs.length → retrieveCleartextVectorInto outs v = .err .cleartextCountMismatch ∧
        retrievePlaintextVectorInto outs v = .err .plaintextCountMismatch)) := by
  refine ⟨⟨x, rfl, rfl, rfl⟩, ?_, fun hx => ⟨xs, ?_, ?_, rfl, fun h => ?_, fun h => ?_⟩⟩
  · rintro rfl
    exact ⟨rfl, rfl⟩
  · have : (xs.length == 0) = false := by simpa using hx
    simp [createCleartextVector, Checks.cleartextVectorCreation, checks, bad, this]
  · have : (xs.length == 0) = false := by simpa using hx
    simp [createPlaintextVector, Checks.plaintextVectorCreation, checks, bad, this]
  · simp [retrieveCleartextVectorInto, retrievePlaintextVectorInto, Checks.cleartextVectorDiscardingRetrieval,
      Checks.plaintextVectorDiscardingRetrieval, checks, bad, h, retrieveVectorIntoUnchecked, copyFromSlice]
  · have : (outs.length != xs.length) = true := by simpa using h
    simp [retrieveCleartextVectorInto, retrievePlaintextVectorInto, Checks.cleartextVectorDiscardingRetrieval,
      Checks.plaintextVectorDiscardingRetrieval, checks, bad, this]

/-! ### Encrypted numbers -/

/-- C111. The unchecked retrievals into an output panic exactly when the lengths differ, and otherwise give the values. -/
theorem C111_data_unchecked {α : Type} (out v : List α) :
    retrieveVectorIntoUnchecked out v = if out.length = v.length then .ok v else .panic := by
  unfold retrieveVectorIntoUnchecked copyFromSlice
  split <;> split <;> simp_all

example : retrieveVectorIntoUnchecked [0, 0, 0] [1, 2] = .panic ∧ retrieveVectorIntoUnchecked [0, 0] [1, 2] = .ok [1, 2] :=
  ⟨rfl, rfl⟩

/-- C111. Encrypted numbers come back: numbers `items` within their ranges are encoded, encrypted by any LWE encryption call
at any point of a history of an engine, decrypted and decoded; every number comes back within the tolerance of its range,
for all bytes of the generators, whatever the history. -/
theorem C111_lwe {ln : F64 → F64} (hln : LnAccurate ln) {w : ℕ} (hw : Width w) {d : Dispersion} (hd : d.Valid)
    (bld : Build) (items : List (Range × ℚ))
    (hi : ∀ it ∈ items, it.1.Fine w (noiseBound w d) ∧ it.1.min ≤ it.2 ∧ it.2 ≤ it.1.max) :
    ∃ es cs, createEncoderVectorMinMax (items.map fun it => it.1.config) = .ok es ∧
      encodeCleartextVector w bld es (items.map fun it => .fin it.2) = .ok cs ∧
      ∀ (T : BitVec 128 → Nat → BitVec 8) (calls : List Session.Call) (e e' : Session.Engine) (os : List Session.Out) (i : Nat)
        (c : Session.EncCall w) (ct : Session.Cts w) (key : List (BitVec w)),
        Session.run T bld calls e = some (os, e') → calls[i]? = some (.enc c) → os[i]? = some (.cts ct) →
        c.lweMessages = some (noiseFn w ln d, key, cs) → c.WellFormed → Lwe.BinaryKey key →
        ∃ pts, ∃ ys : List ℚ, Session.decryptLweVec bld key ⟨ct.size, ct.data⟩ = .ok pts ∧
          decodePlaintextVector bld es pts = .ok (ys.map .fin) ∧
          List.Forall₂ (fun it y => |y - it.2| ≤ it.1.tolerance w (noiseBound w d)) items ys := by
  obtain ⟨es, cs, h1, h2, h3, h4, h5, h6, h7⟩ := numbers hw bld (noiseBound w d) items hi
  have hp0 : ((items.map fun it => it.1.config).any fun c => c.precision == 0) = false := by
    rw [List.any_eq_false]
    intro c hc
    obtain ⟨it, hit, rfl⟩ := List.mem_map.1 hc
    have := (hi it hit).1.p1
    show ¬(it.1.p == 0) = true
    simp; omega
  refine ⟨es, cs, ?_, ?_, ?_⟩
  · rw [createEncoderVectorMinMax, h3, hp0, h4]; rfl
  · rw [encodeCleartextVector, if_neg (by simp [h1]), h5, h6]; rfl
  · intro T calls e e' os i c ct key g1 g2 g3 g4 g5 g6
    obtain ⟨noise, n1, n2, n3, -, -⟩ := Session.C95_lwe T bld calls e e' os g1 i c ct g2 g3 _ key cs g4 g5 (.inr g6)
    obtain ⟨ys, y1, y2⟩ := h7 noise (by rw [n1, h2]) fun x hx => by
      obtain ⟨s, s', hs⟩ := n2 x hx
      exact (C91_noise_bounded hln (by rcases hw with rfl | rfl <;> norm_num) (hw.le.trans (by norm_num)) hd s s').1 x hs
    refine ⟨_, ys, n3, ?_, y2⟩
    rw [decodePlaintextVector, y1]; rfl

/-- C111. The same for GLWE ciphertexts, `polySize` numbers in each. -/
theorem C111_glwe {ln : F64 → F64} (hln : LnAccurate ln) {w : ℕ} (hw : Width w) {d : Dispersion} (hd : d.Valid)
    (bld : Build) (items : List (Range × ℚ))
    (hi : ∀ it ∈ items, it.1.Fine w (noiseBound w d) ∧ it.1.min ≤ it.2 ∧ it.2 ≤ it.1.max) :
    ∃ es cs, createEncoderVectorMinMax (items.map fun it => it.1.config) = .ok es ∧
      encodeCleartextVector w bld es (items.map fun it => .fin it.2) = .ok cs ∧
      ∀ (T : BitVec 128 → Nat → BitVec 8) (calls : List Session.Call) (e e' : Session.Engine) (os : List Session.Out) (i : Nat)
        (c : Session.EncCall w) (ct : Session.Cts w) (key : GlweKey (BitVec w)),
        Session.run T bld calls e = some (os, e') → calls[i]? = some (.enc c) → os[i]? = some (.cts ct) →
        c.glweMessages = some (noiseFn w ln d, key, cs) → c.WellFormed →
        ∃ pts, ∃ ys : List ℚ, Session.decryptGlweVec key ⟨ct.data, key.dim + 1, key.polySize⟩ = .ok pts ∧
          decodePlaintextVector bld es pts = .ok (ys.map .fin) ∧
          List.Forall₂ (fun it y => |y - it.2| ≤ it.1.tolerance w (noiseBound w d)) items ys := by
  obtain ⟨es, cs, h1, h2, h3, h4, h5, h6, h7⟩ := numbers hw bld (noiseBound w d) items hi
  have hp0 : ((items.map fun it => it.1.config).any fun c => c.precision == 0) = false := by
    rw [List.any_eq_false]
    intro c hc
    obtain ⟨it, hit, rfl⟩ := List.mem_map.1 hc
    have := (hi it hit).1.p1
    show ¬(it.1.p == 0) = true
    simp; omega
  refine ⟨es, cs, ?_, ?_, ?_⟩
  · rw [createEncoderVectorMinMax, h3, hp0, h4]; rfl
  · rw [encodeCleartextVector, if_neg (by simp [h1]), h5, h6]; rfl
  · intro T calls e e' os i c ct key g1 g2 g3 g4 g5
    obtain ⟨-, noise, n1, n2, n3, -, -⟩ := Session.C95_glwe T bld calls e e' os g1 i c ct g2 g3 _ key cs g4 g5
    have hl : noise.flatten.length = items.length := by
      rw [← h2, ← n1]
      exact flatten_length_uniform _ _ fun p hp => (n2 p hp).1
    obtain ⟨ys, y1, y2⟩ := h7 noise.flatten hl fun x hx => by
      obtain ⟨p, hp, hxp⟩ := List.mem_flatten.1 hx
      obtain ⟨-, s, s', hs⟩ := n2 p hp
      exact (C91_noise_bounded hln (by rcases hw with rfl | rfl <;> norm_num) (hw.le.trans (by norm_num)) hd s s').2 _ p hs x hxp
    refine ⟨_, ys, n3, ?_, y2⟩
    rw [decodePlaintextVector, y1]; rfl

/-! ### `RealEncoder` -/

/-- C111. The encoder of real numbers: decoding an encoded number gives it back modulo `delta`, up to one unit of the
plaintext on the scale of `delta` and a floating point error. -/
theorem C111_real_encoder {w : ℕ} (hw : Width w) (o d x : ℚ) (hd1 : 1 / 2 ^ 400 ≤ |d|) (hd2 : |d| ≤ 2 ^ 400)
    (ho : |o| ≤ 2 ^ 400) (hx : |x| ≤ 2 ^ 400) :
    ∃ (y : ℚ) (k : ℤ), RealEncoder.decode ⟨.fin o, .fin d⟩ (RealEncoder.encode w ⟨.fin o, .fin d⟩ (.fin x)) = .fin y ∧
      |y - (x - k * d)| ≤ |d| / 2 ^ w + (|x| + |o| + |d|) / 2 ^ 49 := by
  have hw0 : 1 ≤ w := by rcases hw with rfl | rfl <;> norm_num
  have hw128 : w ≤ 128 := hw.le.trans (by norm_num)
  have p400 : (1 : ℚ) / 2 ^ 1000 ≤ 1 / 2 ^ 400 := by
    apply one_div_le_one_div_of_le (by positivity)
    exact pow_le_pow_right₀ (by norm_num) (by norm_num)
  have p1000 : (2 : ℚ) ^ 810 ≤ 2 ^ 1000 := pow_le_pow_right₀ (by norm_num) (by norm_num)
  have p410 : (8 : ℚ) * 2 ^ 400 ≤ 2 ^ 810 := by
    have : (8 : ℚ) * 2 ^ 400 = 2 ^ 403 := by rw [show (8 : ℚ) = 2 ^ 3 by norm_num, ← pow_add]
    rw [this]
    exact pow_le_pow_right₀ (by norm_num) (by norm_num)
  have p1 : (1 : ℚ) / 2 ^ 400 ≤ 1 := by
    rw [div_le_one (by positivity)]
    exact one_le_pow₀ (by norm_num)
  have p810 : (8 : ℚ) * 2 ^ 400 * 2 ^ 400 ≤ 2 ^ 810 := by
    have : (8 : ℚ) * 2 ^ 400 * 2 ^ 400 = 2 ^ 803 := by rw [show (8 : ℚ) = 2 ^ 3 by norm_num, ← pow_add, ← pow_add]
    rw [this]
    exact pow_le_pow_right₀ (by norm_num) (by norm_num)
  have hinv : 1 / |d| ≤ 2 ^ 400 := by
    rw [div_le_iff₀ (by linarith [show (0 : ℚ) < 1 / 2 ^ 400 by positivity])]
    have := mul_le_mul_of_nonneg_left hd1 (show (0 : ℚ) ≤ 2 ^ 400 by positivity)
    rw [mul_one_div, div_self (by positivity)] at this
    linarith
  have hd0 : 0 < |d| := by linarith [show (0 : ℚ) < 1 / 2 ^ 400 by positivity]
  have hdne : d ≠ 0 := abs_pos.1 hd0
  generalize (2 : ℚ) ^ 400 = A at *
  generalize hC : (2 : ℚ) ^ 810 = C at *
  have hox : |x - o| ≤ |x| + |o| := abs_sub _ _
  have hA : 0 ≤ A := by linarith [abs_nonneg o]
  set S := |x| + |o| + |d| with hS
  have hS0 : |d| ≤ S := by have := abs_nonneg x; have := abs_nonneg o; linarith
  -- x - o
  obtain ⟨s, e1, -, k1⟩ := err_rel (q := x - o) S (by linarith) (by linarith) (by linarith)
  have hs : |s| ≤ 2 * S := by
    have := abs_add_le (s - (x - o)) (x - o)
    rw [sub_add_cancel] at this
    have : S / 2 ^ 52 ≤ S := div_le_self (by linarith) (by norm_num)
    linarith
  -- the quotient
  have hq : |s / d| ≤ 2 * S / |d| := by
    rw [abs_div]; gcongr
  have hq1 : 1 ≤ 2 * S / |d| := by rw [le_div_iff₀ hd0]; linarith
  have hSA : S ≤ 3 * A := by linarith
  obtain ⟨t, e2, ht, k2⟩ := err_rel (q := s / d) (2 * S / |d|) hq (by linarith) (by
    have : 2 * S / |d| = 2 * S * (1 / |d|) := by ring
    rw [this]
    have : 2 * S * (1 / |d|) ≤ 6 * A * A := mul_le_mul (by linarith) hinv (by positivity) (by linarith)
    nlinarith)
  -- the conversions
  have hc : RealEncoder.encode w ⟨.fin o, .fin d⟩ (.fin x) = fromTorus w (.fin t) := by
    unfold RealEncoder.encode
    rw [fin_sub, e1]
    show fromTorus w ((F64.fin s).div (.fin d)) = _
    rw [show (F64.fin s).div (.fin d) = ofRat (s / d) by simp [F64.div, hdne], e2]
  have h900 : (2 : ℚ) ^ 810 ≤ 2 ^ 900 := pow_le_pow_right₀ (by norm_num) (by norm_num)
  rw [hC] at h900
  have hqC : 2 * S / |d| ≤ 6 * A * A := by
    have : 2 * S / |d| = 2 * S * (1 / |d|) := by ring
    rw [this]
    exact mul_le_mul (by linarith) hinv (by positivity) (by linarith)
  have htB : |t| ≤ 2 ^ 900 := by
    have h1 := abs_add_le (t - s / d) (s / d)
    rw [sub_add_cancel] at h1
    have h2 : 2 * S / |d| / 2 ^ 52 ≤ 1 / 10 * (2 * S / |d|) := by
      have : (0 : ℚ) ≤ 2 * S / |d| := by linarith
      rw [div_le_iff₀ (by norm_num)]
      nlinarith
    nlinarith
  obtain ⟨k, hk⟩ := (C55_from_torus_partial w hw t (isF64_of_rep ht htB)).1
  obtain ⟨N, e3, -, hN1, -, hN2⟩ := intoTorus_eq hw128 (fromTorus w (.fin t))
  have hW : (0 : ℚ) < 2 ^ w := by positivity
  set u : ℚ := (N : ℚ) / 2 ^ w with hu
  have hu1 : |u| ≤ 1 := by
    rw [hu, abs_of_nonneg (by positivity), div_le_one hW]
    exact_mod_cast hN1
  have hu2 : |u - (t - k)| ≤ 1 / 2 ^ w + 1 / 2 ^ 54 := by
    have h1 : |(N : ℚ) - (fromTorus w (.fin t)).toNat| * 2 ^ 54 ≤ 2 ^ w := by
      have : ((|(N : ℤ) - (fromTorus w (.fin t)).toNat| * 2 ^ 54 : ℤ) : ℚ) ≤ ((2 ^ w : ℤ) : ℚ) := by exact_mod_cast hN2
      push_cast at this
      exact this
    have h2 : |(N : ℚ) - (t - k) * 2 ^ w| ≤ 1 + 2 ^ w / 2 ^ 54 := by
      have := abs_add_le ((N : ℚ) - (fromTorus w (.fin t)).toNat) ((fromTorus w (.fin t)).toNat - (t - k) * 2 ^ w)
      rw [sub_add_sub_cancel] at this
      have h3 : |(N : ℚ) - (fromTorus w (.fin t)).toNat| ≤ 2 ^ w / 2 ^ 54 := by rw [le_div_iff₀ (by norm_num)]; exact h1
      linarith
    have e : u - (t - k) = ((N : ℚ) - (t - k) * 2 ^ w) / 2 ^ w := by rw [hu]; field_simp
    rw [e, abs_div, abs_of_pos hW, div_le_iff₀ hW]
    refine h2.trans (le_of_eq ?_)
    field_simp
  -- the product and the sum
  have hud : |u * d| ≤ |d| := by rw [abs_mul]; nlinarith
  obtain ⟨z, e4, -, k4⟩ := err_rel (q := u * d) |d| hud (by linarith) (by linarith)
  have hz : |z| ≤ 2 * |d| := by
    have := abs_add_le (z - u * d) (u * d)
    rw [sub_add_cancel] at this
    have : |d| / 2 ^ 52 ≤ |d| := div_le_self hd0.le (by norm_num)
    linarith
  obtain ⟨y, e5, -, k5⟩ := err_rel (q := z + o) (2 * S) (by
      have := abs_add_le z o
      have := abs_nonneg x
      linarith) (by linarith) (by linarith)
  refine ⟨y, k, ?_, ?_⟩
  · rw [hc]
    unfold RealEncoder.decode
    rw [e3]
    show ((F64.fin u).mul (.fin d)).add (.fin o) = _
    rw [show (F64.fin u).mul (.fin d) = ofRat (u * d) from rfl, e4,
      show (F64.fin z).add (.fin o) = ofRat (z + o) from rfl, e5]
  · -- the errors add up
    have f1 : |(t - s / d) * d| ≤ 2 * S / 2 ^ 52 := by
      rw [abs_mul]
      have := mul_le_mul_of_nonneg_right k2 hd0.le
      refine this.trans (le_of_eq ?_)
      field_simp
    have f2 : |(u - (t - k)) * d| ≤ |d| / 2 ^ w + |d| / 2 ^ 54 := by
      rw [abs_mul]
      have := mul_le_mul_of_nonneg_right hu2 hd0.le
      refine this.trans (le_of_eq ?_)
      ring
    have e : y - (x - k * d) = (y - (z + o)) + (z - u * d) + (u - (t - k)) * d + (t - s / d) * d + (s - (x - o)) := by
      field_simp
      ring
    rw [e]
    have g := abs_add_le ((y - (z + o)) + (z - u * d) + (u - (t - k)) * d + (t - s / d) * d) (s - (x - o))
    have g2 := abs_add_le ((y - (z + o)) + (z - u * d) + (u - (t - k)) * d) ((t - s / d) * d)
    have g3 := abs_add_le ((y - (z + o)) + (z - u * d)) ((u - (t - k)) * d)
    have g4 := abs_add_le (y - (z + o)) (z - u * d)
    have hfin : 2 * S / 2 ^ 52 + |d| / 2 ^ 52 + |d| / 2 ^ 54 + 2 * S / 2 ^ 52 + S / 2 ^ 52 ≤ S / 2 ^ 49 := by
      norm_num
      linarith
    linarith

/-- C111. Lists: an encoder applied to a list encodes each element, and likewise for decoding. -/
theorem C111_lists {w : ℕ} (m : Build) (f : F64 → Option (BitVec w)) (g : BitVec w → Option F64) (enc : List (BitVec w))
    (raw : List F64) :
    Tensor.Elementwise m [raw.length] (fun i => do let _ ← enc[i]?; let a ← raw[i]?; f a) enc (encodeList m f enc raw) ∧
    Tensor.Elementwise m [enc.length] (fun i => do let _ ← raw[i]?; let a ← enc[i]?; g a) raw (decodeList m g raw enc) :=
  ⟨Tensor.C104_fill_with_one m f enc raw, Tensor.C104_fill_with_one m g raw enc⟩

/-! ### The hypotheses can be met -/

/-- Numbers between -1 and 3 with 8 bits of precision and 2 bits of padding, 64-bit words and the noise of variance
`2^-60`. -/
example : ∃ d : Dispersion, d.Valid ∧ (⟨-1, 3, 8, 2⟩ : Range).Fine 64 (noiseBound 64 d) ∧
    (⟨-1, 3, 8, 2⟩ : Range).tolerance 64 (noiseBound 64 d) ≤ 1 / 2 ^ 20 := by
  have hb : noiseBound 64 (Dispersion.variance (.fin (1 / 2 ^ 60))) ≤ 14 * 2 ^ 34 + 1 := by
    apply Nat.floor_le_of_le
    have : (Dispersion.variance (.fin (1 / 2 ^ 60))).sigma = 1 / 2 ^ 30 := by
      show √(((1 / 2 ^ 60 : ℚ) : ℝ)) = _
      rw [Real.sqrt_eq_iff_mul_self_eq (by norm_num) (by norm_num)]
      norm_num
    rw [this]
    norm_num
  have hq : (noiseBound 64 (Dispersion.variance (.fin (1 / 2 ^ 60))) : ℚ) ≤ 14 * 2 ^ 34 + 1 := by exact_mod_cast hb
  refine ⟨Dispersion.variance (.fin (1 / 2 ^ 60)), ⟨by norm_num, ?_⟩, ⟨by norm_num, by norm_num, by norm_num, by norm_num,
    ⟨3, 0, by norm_num, by norm_num, by norm_num, by norm_num⟩, ?_, ?_, ?_, ?_⟩, ?_⟩
  · exact le_trans (by norm_num) (one_le_pow₀ (by norm_num) : (1 : ℚ) ≤ 2 ^ 900)
  · rw [show |(⟨-1, 3, 8, 2⟩ : Range).min| = 1 by norm_num]
    exact one_le_pow₀ (by norm_num)
  · rw [show |(⟨-1, 3, 8, 2⟩ : Range).max| = 3 by norm_num]
    exact le_trans (by norm_num) (pow_le_pow_right₀ (by norm_num) (by norm_num : 2 ≤ 900) : (2 : ℚ) ^ 2 ≤ 2 ^ 900)
  · exact le_trans (by rw [div_le_one (by positivity)]; exact one_le_pow₀ (by norm_num)) (by norm_num : (1 : ℚ) ≤ 3 - -1)
  · generalize (noiseBound 64 (Dispersion.variance (.fin (1 / 2 ^ 60))) : ℚ) = n at hq
    norm_num at hq ⊢
    linarith
  · unfold Range.tolerance span
    generalize (noiseBound 64 (Dispersion.variance (.fin (1 / 2 ^ 60))) : ℚ) = n at hq
    norm_num at hq ⊢
    linarith

/-- The encoder of offset 1 and length 10, on 7. -/
example : (1 : ℚ) / 2 ^ 400 ≤ |10| ∧ |(10 : ℚ)| ≤ 2 ^ 400 ∧ |(1 : ℚ)| ≤ 2 ^ 400 ∧ |(7 : ℚ)| ≤ 2 ^ 400 := by norm_num

end Verif.Encode
