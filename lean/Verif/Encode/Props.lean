import Verif.Encode.RoundTrip
/-
Properties C54 - C56: float encoders and torus conversions.
-/
set_option exponentiation.threshold 2000
namespace Verif.Encode
open Verif.Float

theorem IsF64.rep {q : ℚ} (h : IsF64 q) : Rep q := by
  obtain ⟨k, e, hk, he, -, rfl⟩ := h
  exact ⟨k, e, hk.le, he, rfl⟩

theorem Width.le {w : ℕ} (h : Width w) : w ≤ 64 := by rcases h with rfl | rfl <;> norm_num

/-! ### C54: encoding then decoding -/

/-- C54, for the parameters for which it holds. An encoder created for the range `[min, max]` with
`p ≤ 46` bits of precision (and `p + 1` below the scalar width) accepts every message of the range,
and decoding the plaintext gives the message back, up to the resolution of the plaintext (`2^pad`
units of `2^-w` times the length of the encoded interval) and a floating point error of `2^-45`
relative to the bounds. Missing from the full claim: messages accepted beyond `max`
(`C54_violated_beyond_max`) and larger precisions (`C54_violated_high_precision`). -/
theorem C54_roundtrip_partial (w : ℕ) (hw : Width w) (m : Build) (min max x : ℚ) (p pad : ℕ)
    (hp : 1 ≤ p) (hp46 : p ≤ 46) (hpw : p + 1 < w) (hpad : pad < w) (hmax : IsF64 max)
    (h1 : |min| ≤ 2 ^ 900) (h2 : |max| ≤ 2 ^ 900) (h3 : 1 / 2 ^ 900 ≤ max - min)
    (hx1 : min ≤ x) (hx2 : x ≤ max) :
    ∃ (e : FloatEncoder) (c : BitVec w) (y : ℚ),
      createEncoderMinMax ⟨.fin min, .fin max, p, pad⟩ = .ok e ∧
      encodeCleartext w m e (.fin x) = .ok c ∧
      decodePlaintext m e c = .ok (.fin y) ∧
      |y - x| ≤ span min max p * (2 ^ pad / 2 ^ w) + (|min| + |max|) / 2 ^ 45 := by
  have hS := scale_f64
  obtain ⟨dl, hc, hdl⟩ := create_ok min max _ _ hS p pad hp hp46 h1 h2 h3
  have hlt : min < max := by have := hS.lpos; linarith
  obtain ⟨c, y, henc, hdec, hy⟩ := roundtrip_core w hw.le m min max dl _ _ hS p pad hp hp46 hpw hpad
    hmax.rep h1 h2 h3 hdl x hx1 hx2
  refine ⟨⟨.fin min, .fin dl, p, pad, false⟩, c, y, ?_, ?_, ?_, hy⟩
  · unfold createEncoderMinMax
    dsimp only
    rw [if_neg (by unfold F64.le; dsimp only; rw [decide_eq_false (not_le.2 hlt)]; simp),
      if_neg (by omega), hc]
    rfl
  · unfold encodeCleartext
    rw [if_neg (by
      rw [not_outOfRange min max dl _ _ hS p pad hp hp46 hmax.rep h1 h2 hlt hdl x hx1 hx2]; simp),
      henc]
    rfl
  · unfold decodePlaintext
    rw [hdec]; rfl

/-- C54 with noise: the same when the plaintext is perturbed by any `n` that stays, once the padding is
removed, below half a granule: no wrap around at either end of the range. -/
theorem C54_noise_partial (w : ℕ) (hw : Width w) (m : Build) (min max x : ℚ) (p pad : ℕ)
    (hp : 1 ≤ p) (hp46 : p ≤ 46) (hpw : p + 1 < w) (hpad : pad < w) (hmax : IsF64 max)
    (h1 : |min| ≤ 2 ^ 900) (h2 : |max| ≤ 2 ^ 900) (h3 : 1 / 2 ^ 900 ≤ max - min)
    (hx1 : min ≤ x) (hx2 : x ≤ max)
    (n : ℤ) (hn : (|(n : ℚ)| + 1) * 2 ^ pad + 2 ^ w / 2 ^ 49 < 2 ^ (w - p - 1)) :
    ∃ (e : FloatEncoder) (c : BitVec w) (y : ℚ),
      createEncoderMinMax ⟨.fin min, .fin max, p, pad⟩ = .ok e ∧
      encodeCleartext w m e (.fin x) = .ok c ∧
      decodePlaintext m e (c + BitVec.ofInt w n) = .ok (.fin y) ∧
      |y - x| ≤ span min max p * ((|(n : ℚ)| + 1) * 2 ^ pad / 2 ^ w) + (|min| + |max|) / 2 ^ 45 := by
  have hS := scale_f64
  obtain ⟨dl, hc, hdl⟩ := create_ok min max _ _ hS p pad hp hp46 h1 h2 h3
  have hlt : min < max := by have := hS.lpos; linarith
  obtain ⟨c, y, henc, hdec, hy⟩ := roundtrip_noise_core w hw.le m min max dl _ _ hS p pad hp hp46 hpw
    hpad hmax.rep h1 h2 h3 hdl x hx1 hx2 n hn
  refine ⟨⟨.fin min, .fin dl, p, pad, false⟩, c, y, ?_, ?_, ?_, hy⟩
  · unfold createEncoderMinMax
    dsimp only
    rw [if_neg (by unfold F64.le; dsimp only; rw [decide_eq_false (not_le.2 hlt)]; simp),
      if_neg (by omega), hc]
    rfl
  · unfold encodeCleartext
    rw [if_neg (by
      rw [not_outOfRange min max dl _ _ hS p pad hp hp46 hmax.rep h1 h2 hlt hdl x hx1 hx2]; simp),
      henc]
    rfl
  · unfold decodePlaintext
    rw [hdec]; rfl

/-- C54, the plaintext itself: its `pad` upper bits are null (they are free for homomorphic operations),
and the others hold the position of the message in the encoded interval, up to one unit of the plaintext
and the floating point error. -/
theorem C54_plaintext_partial (w : ℕ) (hw : Width w) (m : Build) (min max x : ℚ) (p pad : ℕ)
    (hp : 1 ≤ p) (hp46 : p ≤ 46) (hpw : p + 1 < w) (hpad : pad < w) (hmax : IsF64 max)
    (h1 : |min| ≤ 2 ^ 900) (h2 : |max| ≤ 2 ^ 900) (h3 : 1 / 2 ^ 900 ≤ max - min)
    (hx1 : min ≤ x) (hx2 : x ≤ max) (e : FloatEncoder) (c : BitVec w)
    (he : createEncoderMinMax ⟨.fin min, .fin max, p, pad⟩ = .ok e)
    (hc : encodeCleartext w m e (.fin x) = .ok c) :
    c.toNat < 2 ^ (w - pad) ∧
    |(c.toNat : ℚ) - (x - min) / span min max p * 2 ^ (w - pad)| ≤ 2 + 2 ^ (w - pad) / 2 ^ 49 := by
  have hS := scale_f64
  obtain ⟨dl, hcr, hdl⟩ := create_ok min max _ _ hS p pad hp hp46 h1 h2 h3
  have hlt : min < max := by have := hS.lpos; linarith
  obtain ⟨E, s, t, henc, hs0, hs1, hsT, hts, hE⟩ :=
    encode_core w hw.le m min max dl _ _ hS p pad hp hp46 hpw hmax.rep h1 h2 h3 hdl x hx1 hx2
  obtain ⟨sp, -⟩ := span_bounds min max p hp hlt
  have hrange := not_outOfRange min max dl _ _ hS p pad hp hp46 hmax.rep h1 h2 hlt hdl x hx1 hx2
  clear hS h1 h2 h3
  have hee : e = ⟨.fin min, .fin dl, p, pad, false⟩ := by
    unfold createEncoderMinMax at he
    dsimp only at he
    rw [if_neg (by unfold F64.le; dsimp only; rw [decide_eq_false (not_le.2 hlt)]; simp),
      if_neg (by omega), hcr] at he
    injection he with he
    exact he.symm
  subst hee
  unfold encodeCleartext at hc
  rw [if_neg (by rw [hrange]; simp), henc] at hc
  -- the padding is a right shift, whether or not it is zero
  have hsh : addPadding m E pad = some (E >>> pad) := by
    unfold addPadding
    by_cases h0 : pad > 0
    · rw [if_pos h0, shr_ok m E pad hpad]
    · have : pad = 0 := by omega
      subst this
      rw [if_neg h0, BitVec.ushiftRight_zero]
  rw [hsh] at hc
  have hcE : c = E >>> pad := by
    unfold ofOption at hc
    injection hc with hc
    exact hc.symm
  have hcN : c.toNat = E.toNat / 2 ^ pad := by
    rw [hcE, BitVec.toNat_ushiftRight, Nat.shiftRight_eq_div_pow]
  have epow : 2 ^ w = 2 ^ (w - pad) * 2 ^ pad := by rw [← pow_add]; congr 1; omega
  have epowq : (2 : ℚ) ^ w = 2 ^ (w - pad) * 2 ^ pad := by rw [← pow_add]; congr 1; omega
  refine ⟨?_, ?_⟩
  · rw [hcN, Nat.div_lt_iff_lt_mul (Nat.two_pow_pos pad), ← epow]
    exact E.isLt
  · have hsv : (x - min) / span min max p = s := by
      rw [← hsT, mul_div_assoc, div_self (ne_of_gt (by linarith)), mul_one]
    rw [hsv]
    have hP : (0 : ℚ) < 2 ^ pad := by positivity
    have hP1 : (1 : ℚ) ≤ 2 ^ pad := one_le_pow₀ (by norm_num)
    have hA : (0 : ℚ) < 2 ^ (w - pad) := by positivity
    have hm1 : (c.toNat : ℚ) * 2 ^ pad ≤ E.toNat := by
      rw [hcN]; exact_mod_cast Nat.div_mul_le_self E.toNat (2 ^ pad)
    have hm2 : (E.toNat : ℚ) < (c.toNat + 1) * 2 ^ pad := by
      rw [hcN]; exact_mod_cast Nat.lt_mul_of_div_lt (Nat.lt_succ_self _) (Nat.two_pow_pos pad)
    rw [epowq] at hE
    generalize (c.toNat : ℚ) = C at *
    generalize (E.toNat : ℚ) = EE at *
    generalize (2 : ℚ) ^ pad = P at *
    generalize (2 : ℚ) ^ (w - pad) = A at *
    obtain ⟨t1, t2⟩ := abs_le.1 hts
    obtain ⟨e1, e2⟩ := abs_le.1 hE
    have k1 : t * A ≤ s * A + A / 2 ^ 49 := by
      have := mul_le_mul_of_nonneg_right t2 hA.le
      linarith [this, show (1 : ℚ) / 2 ^ 49 * A = A / 2 ^ 49 by ring]
    have k2 : s * A - A / 2 ^ 49 ≤ t * A := by
      have := mul_le_mul_of_nonneg_right t1 hA.le
      linarith [this, show -((1 : ℚ) / 2 ^ 49) * A = -(A / 2 ^ 49) by ring]
    have k3 : C * P ≤ (t * A + 1) * P := by nlinarith
    have k4 : (t * A - 1) * P < (C + 1) * P := by nlinarith
    have k5 := le_of_mul_le_mul_right k3 hP
    have k6 := lt_of_mul_lt_mul_right k4 hP.le
    rw [abs_le]
    constructor <;> linarith

/-- The hypotheses of C54 are met: range `[-1, 10]`, six bits of precision, two of padding, `u32`
plaintexts, message `7/2`, noise `-1000`. -/
example : Width 32 ∧ IsF64 10 ∧ |(-1 : ℚ)| ≤ 2 ^ 900 ∧ |(10 : ℚ)| ≤ 2 ^ 900 ∧
    (1 : ℚ) / 2 ^ 900 ≤ 10 - (-1) ∧ (-1 : ℚ) ≤ 7 / 2 ∧ (7 / 2 : ℚ) ≤ 10 ∧
    (|((-1000 : ℤ) : ℚ)| + 1) * 2 ^ 2 + 2 ^ 32 / 2 ^ 49 < (2 : ℚ) ^ (32 - 6 - 1) := by
  refine ⟨Or.inl rfl, ⟨10, 0, by norm_num, by norm_num, by norm_num, by norm_num⟩, ?_, ?_, ?_,
    by norm_num, by norm_num, by norm_num⟩
  · decide +kernel
  · decide +kernel
  · decide +kernel

/-- The concrete run: `3.5` in `[-1, 10]` with six bits of precision and two of padding. -/
example : (match createEncoderMinMax ⟨.fin (-1), .fin 10, 6, 2⟩ with
    | .ok e => encodeCleartext 32 .debug e (.fin (7 / 2))
    | _ => .panic) = .ok 432394612#32 := by
  decide +kernel

/-- The full claim fails: the encoder created for `[0, 3]` with two bits of precision accepts the
message `4`, which decodes to `0`, the other end of the range. -/
theorem C54_violated_beyond_max : ∃ e : FloatEncoder,
    createEncoderMinMax ⟨.fin 0, .fin 3, 2, 0⟩ = .ok e ∧
    ∀ m, encodeCleartext 32 m e (.fin 4) = .ok 0#32 ∧ decodePlaintext m e (0#32) = .ok (.fin 0) := by
  refine ⟨⟨.fin 0, .fin 4, 2, 0, false⟩, by decide +kernel, ?_⟩
  intro m
  cases m <;> decide +kernel

/-- The full claim fails: with the range `[0, 1]` and 60 bits of precision, accepted for `u64`
plaintexts, the upper bound `1` decodes to `0`: the margin is lost in the rounding of the width. -/
theorem C54_violated_high_precision : ∃ e : FloatEncoder,
    createEncoderMinMax ⟨.fin 0, .fin 1, 60, 0⟩ = .ok e ∧
    ∀ m, encodeCleartext 64 m e (.fin 1) = .ok 0#64 ∧ decodePlaintext m e (0#64) = .ok (.fin 0) := by
  refine ⟨⟨.fin 0, .fin 1, 60, 0, false⟩, by decide +kernel, ?_⟩
  intro m
  cases m <;> decide +kernel

/-! ### C55: torus conversions -/

/-- C55, the part that holds: converting any finite `f64` to the discretized torus gives a value within
`2^-w` of it modulo one, and within half of that, i.e. a closest one, unless the fractional part lies
in `[1/2 - 2^-(w+1), 1/2]`. -/
theorem C55_from_torus_partial (w : ℕ) (hw : Width w) (x : ℚ) (hx : IsF64 x) :
    TorusNear w (fromTorus w (.fin x)).toNat x 1 ∧
    ((∀ k : ℤ, ¬ (1 / 2 - 1 / 2 ^ (w + 1) ≤ x - k ∧ x - k ≤ 1 / 2)) →
      TorusNear w (fromTorus w (.fin x)).toNat x (1 / 2)) := by
  have hw0 : 1 ≤ w := by rcases hw with rfl | rfl <;> norm_num
  obtain ⟨r, v, -, hr1, -, hv1, hvb, hf⟩ := fromTorus_spec w hw0 (hw.le.trans (by norm_num)) x hx.rep
  have hpow : (2 : ℚ) ^ w = 2 * 2 ^ (w - 1) := by rw [← pow_succ']; congr 1; omega
  have hpowz : (2 : ℤ) ^ w = 2 * 2 ^ (w - 1) := by rw [← pow_succ']; congr 1; omega
  have hpz : (0 : ℤ) < 2 ^ (w - 1) := by positivity
  have hpq : (0 : ℚ) < 2 ^ (w - 1) := by positivity
  obtain ⟨va, vb⟩ := abs_le.1 hv1
  obtain ⟨vc, vd⟩ := abs_le.1 hvb
  obtain ⟨ra, rb⟩ := abs_le.1 hr1
  -- the unsigned value is the signed one modulo `2^w`
  have red : ∀ u : ℤ, -2 ^ (w - 1) ≤ u → u < 2 ^ (w - 1) → ∀ d : ℚ, |(u : ℚ) - (x - r) * 2 ^ w| ≤ d →
      TorusNear w (BitVec.ofInt w u).toNat x d := by
    intro u h1 h2 d hd
    by_cases h0 : 0 ≤ u
    · refine ⟨r, ?_⟩
      have e := toNat_ofInt_of_bounds w u h0 (by omega)
      have e' : ((BitVec.ofInt w u).toNat : ℚ) = u := by exact_mod_cast e
      rw [e']; exact hd
    · refine ⟨r - 1, ?_⟩
      have e := toNat_ofInt_neg w u (by omega) (by omega)
      have e' : ((BitVec.ofInt w u).toNat : ℚ) = u + 2 ^ w := by exact_mod_cast e
      rw [e']
      have : (u : ℚ) + 2 ^ w - (x - ((r - 1 : ℤ) : ℚ)) * 2 ^ w = u - (x - r) * 2 ^ w := by
        push_cast; ring
      rw [this]; exact hd
  rw [hf]
  by_cases hsat : v = 2 ^ (w - 1)
  · rw [if_pos hsat]
    have hvq : (v : ℚ) = 2 ^ (w - 1) := by rw [hsat]; push_cast; rfl
    rw [hvq] at va vb
    have hle : (x - r) * 2 ^ w ≤ 2 ^ (w - 1) := by rw [hpow]; nlinarith
    constructor
    · refine red _ (by omega) (by omega) 1 ?_
      push_cast
      rw [abs_le]; constructor <;> linarith
    · intro hno
      exfalso
      refine hno r ⟨?_, rb⟩
      have hW : (0 : ℚ) < 2 ^ w := by positivity
      have e : (1 : ℚ) / 2 - 1 / 2 ^ (w + 1) = (2 ^ (w - 1) - 1 / 2) / 2 ^ w := by
        rw [pow_succ, hpow]; field_simp
      rw [e, div_le_iff₀ hW]
      linarith
  · rw [if_neg hsat]
    have hd : |(v : ℚ) - (x - r) * 2 ^ w| ≤ 1 / 2 := by rw [abs_sub_comm]; exact hv1
    exact ⟨red v vc (by omega) 1 (by linarith), fun _ => red v vc (by omega) _ hd⟩

/-- The hypotheses of C55 are met by `0.3` rounded to an `f64`, which is away from one half. -/
example : IsF64 (5404319552844595 * 2 ^ (-54 : ℤ)) ∧ fromTorus 32 (.fin (5404319552844595 * 2 ^ (-54 : ℤ))) =
    1288490189#32 := by
  refine ⟨⟨5404319552844595, -54, by norm_num, by norm_num, by norm_num, by norm_num⟩, ?_⟩
  decide +kernel

/-- The claim "the closest unsigned integer representation" fails just below one half: `1/2 - 2^-40` is
at distance `2^-8` units from `0x80000000`, but converts to `0x7fffffff`. -/
theorem C55_violated_below_half : IsF64 (1 / 2 - 1 / 2 ^ 40) ∧
    fromTorus 32 (.fin (1 / 2 - 1 / 2 ^ 40)) = 0x7fffffff#32 ∧
    TorusNear 32 0x80000000 (1 / 2 - 1 / 2 ^ 40) (1 / 2 ^ 8) ∧
    ¬ TorusNear 32 0x7fffffff (1 / 2 - 1 / 2 ^ 40) (1 / 2) := by
  refine ⟨⟨2 ^ 39 - 1, -40, by norm_num, by norm_num, by norm_num, by norm_num⟩, by decide +kernel,
    ⟨0, by norm_num⟩, ?_⟩
  rintro ⟨k, hk⟩
  obtain ⟨h1, h2⟩ := abs_le.1 hk
  have hk0 : k = 0 := by
    have h3 : (-1 : ℚ) < k := by norm_num at h1 h2; linarith
    have h4 : (k : ℚ) < 1 := by norm_num at h1 h2; linarith
    have h3' : -1 < k := by exact_mod_cast h3
    have h4' : k < 1 := by exact_mod_cast h4
    omega
  subst hk0
  norm_num at h1

/-- The same at the negative half, for `u64`: `-1/2` is exactly `0x8000000000000000` but converts to
`0x7fffffffffffffff`. -/
theorem C55_violated_negative_half :
    fromTorus 64 (.fin (-1 / 2)) = 0x7fffffffffffffff#64 ∧
    TorusNear 64 0x8000000000000000 (-1 / 2) 0 := by
  exact ⟨by decide +kernel, ⟨-1, by norm_num⟩⟩

/-- C55, round trip: a discretized torus element converted to `f64` and back is unchanged for the widths
that fit in the significand (`u8`, `u16`, `u32`), and moves by at most `2^(w-54)` units (`2^10` for
`u64`) modulo `2^w` otherwise. -/
theorem C55_roundtrip (w : ℕ) (hw0 : 1 ≤ w) (hw : w ≤ 128) (x : BitVec w) :
    ∃ t : ℚ, intoTorus x = .fin t ∧ (w ≤ 53 → fromTorus w (.fin t) = x) ∧
      ∃ d : ℤ, |d| * 2 ^ 54 ≤ 2 ^ w ∧ fromTorus w (.fin t) = x + BitVec.ofInt w d := by
  obtain ⟨N, hN, hrep, hN1, hN2, hN3⟩ := intoTorus_eq hw x
  obtain ⟨r, v, hr, hr1, -, hv1, hvb, hf⟩ := fromTorus_spec w hw0 hw _ hrep
  have hW : (0 : ℚ) < 2 ^ w := by positivity
  have hpz : (0 : ℤ) < 2 ^ (w - 1) := by positivity
  have hpow : (2 : ℚ) ^ w = 2 * 2 ^ (w - 1) := by rw [← pow_succ']; congr 1; omega
  -- the scaled value is an integer
  have hv : v = N - r * 2 ^ w := by
    have e : ((N : ℚ) / 2 ^ w - r) * 2 ^ w - v = ((N - r * 2 ^ w - v : ℤ) : ℚ) := by
      push_cast; field_simp
    rw [e] at hv1
    have h1 : |(N : ℤ) - r * 2 ^ w - v| < 1 := by
      have : |((N - r * 2 ^ w - v : ℤ) : ℚ)| < 1 := by linarith
      exact_mod_cast this
    have := Int.abs_lt_one_iff.1 h1
    omega
  have hsat : v ≠ 2 ^ (w - 1) := by
    intro hsat
    -- the nearest integer to a half is one, so the difference is not a positive half
    have h0 : (0 : ℚ) ≤ (N : ℚ) / 2 ^ w := div_nonneg (Nat.cast_nonneg _) hW.le
    unfold F64.round at hr
    dsimp only at hr
    rw [if_pos h0] at hr
    have hr' : ((⌊(N : ℚ) / 2 ^ w + 1 / 2⌋ : ℤ) : ℚ) = r := by
      injection hr
    have hlt := Int.lt_floor_add_one ((N : ℚ) / 2 ^ w + 1 / 2)
    rw [hr'] at hlt
    have e : (N : ℚ) / 2 ^ w - r = 1 / 2 := by
      have h2 : ((N : ℤ) : ℚ) - r * 2 ^ w = 2 ^ (w - 1) := by
        have := hv.symm.trans hsat
        exact_mod_cast this
      have h3 : (N : ℚ) = r * 2 ^ w + 2 ^ (w - 1) := by push_cast at h2; linarith
      rw [h3, hpow]; field_simp; ring
    linarith
  have hback : fromTorus w (.fin ((N : ℚ) / 2 ^ w)) = BitVec.ofInt w N := by
    rw [hf, if_neg hsat, hv]
    apply BitVec.eq_of_toNat_eq
    rw [BitVec.toNat_ofInt, BitVec.toNat_ofInt]
    congr 1
    push_cast
    rw [Int.sub_emod, Int.mul_emod_left, sub_zero, Int.emod_emod]
  have hx : BitVec.ofInt w (x.toNat : ℤ) = x := by
    apply BitVec.eq_of_toNat_eq
    have := toNat_ofInt_of_bounds w (x.toNat : ℤ) (by omega) (by exact_mod_cast x.isLt)
    exact_mod_cast this
  refine ⟨_, hN, ?_, (N : ℤ) - x.toNat, hN3, ?_⟩
  · intro h53
    rw [hback, hN2 h53, hx]
  · rw [hback]
    have hx' : x + BitVec.ofInt w ((N : ℤ) - x.toNat) =
        BitVec.ofInt w (x.toNat : ℤ) + BitVec.ofInt w ((N : ℤ) - x.toNat) := by rw [hx]
    rw [hx', ← BitVec.ofInt_add]
    congr 1
    ring

/-- C55 on concrete values: `u32` round trips exactly; the `u64` value `2^53 + 1` loses its last bit. -/
example : fromTorus 32 (intoTorus 0xdeadbeef#32) = 0xdeadbeef#32 ∧
    fromTorus 64 (intoTorus (9007199254740993#64)) = 9007199254740992#64 := by
  constructor <;> decide +kernel

/-! ### C56: errors of the encoder engines -/

/-- C56, creation from bounds, for finite bounds: an error exactly when the bounds are not increasing or
the precision is null, reported in this order; otherwise an encoder with the requested lower bound,
precision and padding. -/
theorem C56_create_min_max (min max : ℚ) (p pad : ℕ) :
    (max ≤ min → createEncoderMinMax ⟨.fin min, .fin max, p, pad⟩ = .err .minMaxOrder) ∧
    (min < max → p = 0 → createEncoderMinMax ⟨.fin min, .fin max, p, pad⟩ = .err .nullPrecision) ∧
    (min < max → p ≠ 0 → ∃ e, createEncoderMinMax ⟨.fin min, .fin max, p, pad⟩ = .ok e ∧
      e.o = .fin min ∧ e.precision = p ∧ e.padding = pad) := by
  unfold createEncoderMinMax MinMax.toCommons F64.le F64.lt
  dsimp only
  refine ⟨fun h => ?_, fun h hp => ?_, fun h hp => ?_⟩
  · rw [if_pos (decide_eq_true h)]
  · rw [if_neg (by simpa using h), if_pos hp]
  · rw [if_neg (by simpa using h), if_neg hp, if_neg (by simpa using h), if_neg hp]
    exact ⟨_, rfl, rfl, rfl, rfl⟩

/-- C56, creation from a center and a radius: the encoder of the bounds `center ± radius` computed in
`f64`, with errors exactly for a radius that is not positive or a null precision. -/
theorem C56_create_center_radius_partial (center radius : ℚ) (p pad : ℕ) :
    (radius ≤ 0 → createEncoderCenterRadius ⟨.fin center, .fin radius, p, pad⟩ = .err .nullRadius) ∧
    (0 < radius → p = 0 →
      createEncoderCenterRadius ⟨.fin center, .fin radius, p, pad⟩ = .err .nullPrecision) ∧
    (0 < radius → p ≠ 0 → ∀ min max : ℚ, ofRat (center - radius) = .fin min →
      ofRat (center + radius) = .fin max → min < max →
      createEncoderCenterRadius ⟨.fin center, .fin radius, p, pad⟩ =
        createEncoderMinMax ⟨.fin min, .fin max, p, pad⟩) := by
  refine ⟨fun h => ?_, fun h hp => ?_, fun h hp min max hmin hmax hlt => ?_⟩
  · unfold createEncoderCenterRadius F64.le
    dsimp only
    rw [if_pos (decide_eq_true h)]
  · unfold createEncoderCenterRadius F64.le
    dsimp only
    rw [if_neg (by simpa using h), if_pos hp]
  · unfold createEncoderCenterRadius createEncoderMinMax CenterRadius.toCommons
    dsimp only
    have e1 : (F64.fin radius).le (.fin 0) = false := decide_eq_false (not_le.2 h)
    have e2 : (F64.fin 0).lt (.fin radius) = true := decide_eq_true h
    have e3 : (F64.fin max).le (.fin min) = false := decide_eq_false (not_le.2 hlt)
    have e4 : (F64.fin center).sub (.fin radius) = .fin min := by rw [fin_sub, hmin]
    have e5 : (F64.fin center).add (.fin radius) = .fin max := hmax
    rw [e1, e2, e3, e4, e5]
    simp [hp]

/-- The hypotheses of the last clause are met, with a result that rounds. -/
example : ofRat (1 - 1 / 3) = .fin (6004799503160661 / 2 ^ 53) ∧
    ofRat (1 + 1 / 3) = .fin (6004799503160661 / 2 ^ 52) := by
  constructor <;> decide +kernel

/-- "Every invalid configuration is reported as an error" fails: a NaN bound makes the checked function
panic. -/
theorem C56_violated_nan (p pad : ℕ) (hp : p ≠ 0) (x : F64) :
    createEncoderMinMax ⟨.nan, x, p, pad⟩ = .panic ∧
    createEncoderCenterRadius ⟨x, .nan, p, pad⟩ = .panic := by
  have e1 : x.le .nan = false := by cases x <;> rfl
  have e2 : F64.nan.lt x = false := by cases x <;> rfl
  have e3 : F64.nan.le (.fin 0) = false := rfl
  have e4 : (F64.fin 0).lt .nan = false := rfl
  unfold createEncoderMinMax createEncoderCenterRadius MinMax.toCommons CenterRadius.toCommons
  dsimp only
  rw [e1, e2, e3, e4]
  simp [hp, ofOption]

/-- It also fails for a positive radius below the resolution of the center: `1 ± 2^-80`. -/
theorem C56_violated_small_radius :
    createEncoderCenterRadius ⟨.fin 1, .fin (1 / 2 ^ 80), 4, 0⟩ = .panic := by decide +kernel

/-- Decoding is checked by nothing: with 31 bits of precision and `u32` plaintexts, both accepted,
decoding panics in a debug build whatever the plaintext, and so does encoding with 32 bits of
padding. -/
theorem C56_violated_debug_shift (x : BitVec 32) : ∃ e e' : FloatEncoder,
    createEncoderMinMax ⟨.fin 0, .fin 1, 31, 0⟩ = .ok e ∧ decodePlaintext .debug e x = .panic ∧
    createEncoderMinMax ⟨.fin 0, .fin 1, 4, 32⟩ = .ok e' ∧
    encodeCleartext 32 .debug e' (.fin 0) = .panic := by
  refine ⟨⟨.fin 0, .fin (4503599629467648 / 2 ^ 52), 31, 0, false⟩,
    ⟨.fin 0, .fin (4803839602528529 / 2 ^ 52), 4, 32, false⟩, by decide +kernel, ?_, by decide +kernel,
    by decide +kernel⟩
  unfold decodePlaintext FloatEncoder.decode
  have h1 : FloatEncoder.isValid ⟨.fin 0, .fin (4503599629467648 / 2 ^ 52), 31, 0, false⟩ = true := by
    decide +kernel
  rw [h1]
  rfl

/-- C56, encoding: the checked function reports exactly the messages outside of the encoder's interval
`[min, min + width]`, and otherwise does what the unchecked one does. -/
theorem C56_encode (w : ℕ) (m : Build) (o dl x sum : ℚ) (p pad : ℕ) (round : Bool)
    (hsum : ofRat (o + dl) = .fin sum) :
    let e : FloatEncoder := ⟨.fin o, .fin dl, p, pad, round⟩
    (x < o ∨ sum < x → encodeCleartext w m e (.fin x) = .err .outsideInterval) ∧
    (o ≤ x → x ≤ sum → encodeCleartext w m e (.fin x) = ofOption (e.encode w m (.fin x))) := by
  intro e
  have hs : (F64.fin o).add (.fin dl) = .fin sum := hsum
  have hr : e.outOfRange (.fin x) = (decide (x < o) || decide (sum < x)) := by
    show ((F64.fin x).lt (.fin o) || ((F64.fin o).add (.fin dl)).lt (.fin x)) = _
    rw [hs]; rfl
  unfold encodeCleartext
  rw [hr]
  constructor
  · intro h
    rw [if_pos (by simpa using h)]
  · intro h1 h2
    rw [if_neg (by simp [h1, h2])]

theorem mapM_getElem? {α β : Type} (f : α → Option β) : ∀ (l : List α) (r : List β),
    l.mapM f = some r → r.length = l.length ∧ ∀ (i : ℕ) (a : α), l[i]? = some a → f a = r[i]?
  | [], r, h => by
    have : r = [] := by simpa using h.symm
    subst this
    exact ⟨rfl, fun i a h => by simp at h⟩
  | x :: l, r, h => by
    rw [List.mapM_cons] at h
    simp only [Option.bind_eq_bind, Option.bind_eq_some_iff, Option.pure_def, Option.some.injEq] at h
    obtain ⟨y, hy, r', hr', rfl⟩ := h
    obtain ⟨h1, h2⟩ := mapM_getElem? f l r' hr'
    refine ⟨by simp [h1], ?_⟩
    intro i a hi
    cases i with
    | zero => simp only [List.getElem?_cons_zero, Option.some.injEq] at hi ⊢; rw [← hi, hy]
    | succ i => simp only [List.getElem?_cons_succ] at hi ⊢; exact h2 i a hi

/-- C56, vectors: encoding a vector reports a length mismatch first, then a message outside of its
encoder's interval; a successful call has encoded every component with its own encoder. -/
theorem C56_encode_vector (w : ℕ) (m : Build) (es : List FloatEncoder) (xs : List F64) :
    (es.length ≠ xs.length → encodeCleartextVector w m es xs = .err .encoderCountMismatch) ∧
    (es.length = xs.length → (∃ (i : ℕ) (e : FloatEncoder) (x : F64), es[i]? = some e ∧ xs[i]? = some x ∧ e.outOfRange x) →
      encodeCleartextVector w m es xs = .err .outsideInterval) ∧
    (∀ cs, encodeCleartextVector w m es xs = .ok cs → cs.length = xs.length ∧
      es.length = xs.length ∧ ∀ (i : ℕ) (e : FloatEncoder) (x : F64), es[i]? = some e → xs[i]? = some x →
        ∃ c, cs[i]? = some c ∧ encodeCleartext w m e x = .ok c) := by
  unfold encodeCleartextVector
  refine ⟨fun h => by rw [if_pos h], fun h hex => ?_, fun cs hcs => ?_⟩
  · obtain ⟨i, e, x, h1, h2, h3⟩ := hex
    rw [if_neg (by simpa using h), if_pos]
    rw [List.any_eq_true]
    refine ⟨(e, x), ?_, h3⟩
    rw [List.mem_iff_getElem?]
    exact ⟨i, by rw [List.getElem?_zip_eq_some]; exact ⟨h1, h2⟩⟩
  · split at hcs
    · cases hcs
    rename_i hlen
    have hlen' : es.length = xs.length := by simpa using hlen
    split at hcs
    · cases hcs
    rename_i hany
    unfold ofOption at hcs
    split at hcs
    · rename_i cs' hm
      injection hcs with hcs
      subst hcs
      obtain ⟨h1, h2⟩ := mapM_getElem? _ _ _ hm
      refine ⟨by rw [h1, List.length_zip, hlen', Nat.min_self], hlen', ?_⟩
      intro i e x he hx
      have hz : (es.zip xs)[i]? = some (e, x) := List.getElem?_zip_eq_some.2 ⟨he, hx⟩
      have h3 := h2 i (e, x) hz
      have hnot : e.outOfRange x = false := by
        by_contra hc
        apply hany
        rw [List.any_eq_true]
        exact ⟨(e, x), List.mem_of_getElem? hz, by simpa using hc⟩
      have hi : i < cs'.length := by
        rw [h1]
        by_contra hc
        rw [List.getElem?_eq_none (not_lt.1 hc)] at hz
        cases hz
      refine ⟨cs'[i], List.getElem?_eq_getElem hi, ?_⟩
      unfold encodeCleartext
      dsimp only at h3
      rw [hnot, if_neg (by simp), h3, List.getElem?_eq_getElem hi]
      rfl
    · cases hcs

/-- Concrete vectors: a success, a message out of range, a mismatch. -/
example : encodeCleartextVector 32 .debug [⟨.fin 0, .fin 4, 2, 0, false⟩, ⟨.fin 1, .fin 4, 2, 1, false⟩]
      [.fin 1, .fin 3] = .ok [0x40000000#32, 0x40000000#32] ∧
    encodeCleartextVector 32 .debug [⟨.fin 0, .fin 4, 2, 0, false⟩] [.fin 5] = .err .outsideInterval ∧
    encodeCleartextVector 32 .debug [⟨.fin 0, .fin 4, 2, 0, false⟩] [] = .err .encoderCountMismatch := by
  refine ⟨?_, ?_, ?_⟩ <;> decide +kernel

/-- C56, creation of vectors: the errors are those of the components, the ordering of all bounds being
checked before the precisions; a successful call has created every encoder from its own
configuration. -/
theorem C56_create_vector (cs : List MinMax) :
    ((∃ c ∈ cs, c.max.le c.min) → createEncoderVectorMinMax cs = .err .minMaxOrder) ∧
    ((∀ c ∈ cs, c.max.le c.min = false) → (∃ c ∈ cs, c.precision = 0) →
      createEncoderVectorMinMax cs = .err .nullPrecision) ∧
    (∀ es, createEncoderVectorMinMax cs = .ok es → es.length = cs.length ∧
      ∀ (i : ℕ) (c : MinMax), cs[i]? = some c → ∃ e, es[i]? = some e ∧ createEncoderMinMax c = .ok e) := by
  unfold createEncoderVectorMinMax
  refine ⟨fun h => ?_, fun h1 h2 => ?_, fun es hes => ?_⟩
  · rw [if_pos (by simpa [List.any_eq_true] using h)]
  · rw [if_neg (by simpa [List.any_eq_true] using h1), if_pos (by simpa [List.any_eq_true] using h2)]
  · split at hes
    · cases hes
    rename_i h1
    split at hes
    · cases hes
    rename_i h2
    unfold ofOption at hes
    split at hes
    · rename_i es' hm
      injection hes with hes
      subst hes
      obtain ⟨g1, g2⟩ := mapM_getElem? _ _ _ hm
      refine ⟨g1, ?_⟩
      intro i c hc
      have hmem := List.mem_of_getElem? hc
      have g3 := g2 i c hc
      have hi : i < es'.length := by
        rw [g1]
        by_contra hh
        rw [List.getElem?_eq_none (not_lt.1 hh)] at hc
        cases hc
      refine ⟨es'[i], List.getElem?_eq_getElem hi, ?_⟩
      have a1 : c.max.le c.min = false := by
        by_contra hh
        exact h1 (List.any_eq_true.2 ⟨c, hmem, by simpa using hh⟩)
      have a2 : c.precision ≠ 0 := by
        intro hh
        exact h2 (List.any_eq_true.2 ⟨c, hmem, by simpa using hh⟩)
      unfold createEncoderMinMax
      rw [a1, if_neg (by simp), if_neg a2, g3, List.getElem?_eq_getElem hi]
      rfl
    · cases hes

/-- Concrete vectors of configurations: a null precision and decreasing bounds. -/
example : createEncoderVectorMinMax [⟨.fin 0, .fin 1, 0, 0⟩, ⟨.fin 1, .fin 0, 3, 0⟩] =
      .err .minMaxOrder ∧
    createEncoderVectorMinMax [⟨.fin 0, .fin 1, 0, 0⟩, ⟨.fin 0, .fin 1, 3, 0⟩] =
      .err .nullPrecision ∧
    createEncoderVectorMinMax [⟨.fin 0, .fin 3, 2, 0⟩] = .ok [⟨.fin 0, .fin 4, 2, 0, false⟩] := by
  refine ⟨?_, ?_, ?_⟩ <;> decide +kernel

/-- Decoding a vector reports no mismatch: the extra plaintexts (or encoders) are dropped. -/
theorem C56_violated_decode_mismatch :
    decodePlaintextVector .debug [⟨.fin 0, .fin 4, 2, 0, false⟩] [0x40000000#32, 0x80000000#32] =
      .ok [.fin 1] := by decide +kernel

end Verif.Encode
