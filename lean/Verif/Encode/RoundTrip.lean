import Verif.Encode.Lemmas
import Verif.Encode.Spec
/-
Error analysis of encoding followed by decoding.
-/
namespace Verif.Encode
open Verif.Float Verif.Decomp

/-! ### Bit manipulations -/

theorem toNat_ofInt_of_bounds (w : ℕ) (v : ℤ) (h0 : 0 ≤ v) (h1 : v < 2 ^ w) :
    ((BitVec.ofInt w v).toNat : ℤ) = v := by
  rw [BitVec.toNat_ofInt]
  have : v % (2 ^ w : ℕ) = v := Int.emod_eq_of_lt h0 (by exact_mod_cast h1)
  rw [this, Int.toNat_of_nonneg h0]

theorem toNat_ofInt_neg (w : ℕ) (v : ℤ) (h0 : v < 0) (h1 : -2 ^ w ≤ v) :
    ((BitVec.ofInt w v).toNat : ℤ) = v + 2 ^ w := by
  have e : BitVec.ofInt w v = BitVec.ofInt w (v + 2 ^ w) := by
    apply BitVec.eq_of_toNat_eq
    rw [BitVec.toNat_ofInt, BitVec.toNat_ofInt]
    congr 1
    push_cast
    rw [Int.add_emod_right]
  rw [e]
  exact toNat_ofInt_of_bounds w _ (by omega) (by omega)

/-- `from_torus` on `[0, 1 - 2^-w]`. -/
theorem fromTorus_unit (w : ℕ) (hw0 : 1 ≤ w) (hw : w ≤ 128) (t : ℚ) (ht : Rep t) (h0 : 0 ≤ t)
    (h1 : t * 2 ^ w + 1 ≤ 2 ^ w) : |((fromTorus w (.fin t)).toNat : ℚ) - t * 2 ^ w| ≤ 1 := by
  obtain ⟨r, v, -, hr1, -, hv1, hvb, hf⟩ := fromTorus_spec w hw0 hw t ht
  rw [hf]
  have hp : (0 : ℚ) < 2 ^ w := by positivity
  have hpow : (2 : ℚ) ^ w = 2 * 2 ^ (w - 1) := by rw [← pow_succ']; congr 1; omega
  have hpowz : (2 : ℤ) ^ w = 2 * 2 ^ (w - 1) := by rw [← pow_succ']; congr 1; omega
  have hpz : (0 : ℤ) < 2 ^ (w - 1) := by positivity
  have ht1 : t < 1 := by nlinarith
  obtain ⟨hra, hrb⟩ := abs_le.1 hr1
  have hr01 : r = 0 ∨ r = 1 := by
    have h2 : -1 < (r : ℚ) := by linarith
    have h3 : (r : ℚ) < 2 := by linarith
    have h2' : -1 < r := by exact_mod_cast h2
    have h3' : r < 2 := by exact_mod_cast h3
    omega
  obtain ⟨hva, hvb'⟩ := abs_le.1 hv1
  obtain ⟨hvc, hvd⟩ := abs_le.1 hvb
  rcases hr01 with rfl | rfl
  · rw [Int.cast_zero, sub_zero] at hva hvb' hrb
    have hv0 : 0 ≤ v := by
      have : -1 < (v : ℚ) := by nlinarith
      have : -1 < v := by exact_mod_cast this
      omega
    split
    · rename_i hve
      have e := toNat_ofInt_of_bounds w (2 ^ (w - 1) - 1) (by omega) (by omega)
      have e' : ((BitVec.ofInt w (2 ^ (w - 1) - 1)).toNat : ℚ) = 2 ^ (w - 1) - 1 := by
        exact_mod_cast e
      rw [e']
      rw [hve] at hva hvb'
      push_cast at hva hvb'
      have : t * 2 ^ w ≤ 2 ^ (w - 1) := by rw [hpow]; nlinarith
      rw [abs_le]; constructor <;> linarith
    · have e := toNat_ofInt_of_bounds w v hv0 (by omega)
      have e' : ((BitVec.ofInt w v).toNat : ℚ) = v := by exact_mod_cast e
      rw [e', abs_le]; constructor <;> linarith
  · rw [Int.cast_one] at hva hvb'
    have e0 : (t - 1) * 2 ^ w = t * 2 ^ w - 2 ^ w := by ring
    rw [e0] at hva hvb'
    have hv0 : v < 0 := by
      have : (v : ℚ) < 0 := by linarith
      exact_mod_cast this
    rw [if_neg (by omega)]
    have e := toNat_ofInt_neg w v hv0 (by omega)
    have e' : ((BitVec.ofInt w v).toNat : ℚ) = v + 2 ^ w := by exact_mod_cast e
    rw [e', abs_le]; constructor <;> linarith

theorem shl_ok {w : ℕ} (m : Build) (x : BitVec w) (k : ℕ) (h : k < w) :
    shl m x k = some (x <<< k) := by
  cases m
  · simp only [shl, if_pos h]
  · simp only [shl, Nat.mod_eq_of_lt h]

theorem shr_ok {w : ℕ} (m : Build) (x : BitVec w) (k : ℕ) (h : k < w) :
    shr m x k = some (x >>> k) := by
  cases m
  · simp only [shr, if_pos h]
  · simp only [shr, Nat.mod_eq_of_lt h]

theorem subUsize_ok (m : Build) (a b : ℕ) (h : b ≤ a) (ha : a < 2 ^ 64) :
    subUsize m a b = some (a - b) := by
  cases m
  · simp only [subUsize, if_pos h]
  · simp only [subUsize]; congr 1; omega

theorem roundTo_ok {w : ℕ} (hw : w < 2 ^ 64) (m : Build) (b : ℕ) (hb0 : 1 ≤ b) (hb : b < w)
    (x : BitVec w) : roundTo m b x = some (closestRepresentable b 1 x) := by
  unfold roundTo
  rw [if_neg (by rintro ⟨-, h⟩; exact h hb), subUsize_ok m w b hb.le hw]
  simp only [Option.bind_eq_bind, Option.bind_some]
  rw [subUsize_ok m (w - b) 1 (by omega) (by omega)]
  simp only [Option.bind_some]
  rw [shl_ok m _ _ (by omega)]
  simp only [Option.bind_some]
  rw [shr_ok m _ _ (by omega)]
  simp only [Option.bind_some]
  rw [shr_ok m _ _ (by omega)]
  simp only [Option.bind_some]
  rw [shl_ok m _ _ (by omega)]
  simp only [closestRepresentable, Nat.one_mul]

/-- The start of the last granule. -/
theorem start_toNat {w : ℕ} (p : ℕ) (hp : 1 ≤ p) (hpw : p + 1 < w) :
    (((1#w <<< (p + 1)) - 1#w) <<< (w - p)).toNat = (2 ^ p - 1) * 2 ^ (w - p) := by
  have h1 := toNat_one_shl (w := w) (p + 1) hpw
  have h2 := toNat_one (w := w) (by omega)
  have hlt : 2 ^ (p + 1) < 2 ^ w := Nat.pow_lt_pow_right (by omega) hpw
  have h3 : ((1#w <<< (p + 1)) - 1#w).toNat = 2 ^ (p + 1) - 1 := by
    rw [BitVec.toNat_sub, h1, h2]
    have hpos := Nat.two_pow_pos (p + 1)
    have : 2 ^ w - 1 + 2 ^ (p + 1) = 2 ^ (p + 1) - 1 + 2 ^ w := by omega
    rw [this, Nat.add_mod_right]
    exact Nat.mod_eq_of_lt (by omega)
  rw [BitVec.toNat_shiftLeft, h3, Nat.shiftLeft_eq]
  have e1 : 2 ^ w = 2 ^ p * 2 ^ (w - p) := by rw [← pow_add]; congr 1; omega
  have e2 : (2 ^ (p + 1) - 1) * 2 ^ (w - p) = (2 ^ p - 1) * 2 ^ (w - p) + 2 ^ w := by
    rw [e1, ← Nat.add_mul]
    congr 1
    have := Nat.two_pow_pos p
    rw [pow_succ]; omega
  rw [e2, Nat.add_mod_right]
  apply Nat.mod_eq_of_lt
  rw [e1]
  exact Nat.mul_lt_mul_of_pos_right (by have := Nat.two_pow_pos p; omega) (Nat.two_pow_pos _)

/-- Just above the start of the last granule, rounding gives back the start. -/
theorem closest_last {w : ℕ} (p : ℕ) (hpw : p + 1 < w) (x : BitVec w)
    (h1 : (2 ^ p - 1) * 2 ^ (w - p) ≤ x.toNat)
    (h2 : x.toNat < (2 ^ p - 1) * 2 ^ (w - p) + 2 ^ (w - p - 1)) :
    (closestRepresentable p 1 x).toNat = (2 ^ p - 1) * 2 ^ (w - p) := by
  rw [closest_toNat p 1 x (by omega), Nat.one_mul]
  have e1 : 2 ^ w = 2 ^ p * 2 ^ (w - p) := by rw [← pow_add]; congr 1; omega
  have e2 : 2 ^ (w - p) = 2 * 2 ^ (w - p - 1) := by rw [← pow_succ']; congr 1; omega
  have hq : (x.toNat + 2 ^ (w - p - 1)) / 2 ^ (w - p) = 2 ^ p - 1 := by
    apply Nat.div_eq_of_lt_le
    · omega
    · rw [Nat.add_mul, Nat.one_mul]; omega
  rw [hq]
  apply Nat.mod_eq_of_lt
  rw [e1]
  exact Nat.mul_lt_mul_of_pos_right (by have := Nat.two_pow_pos p; omega) (Nat.two_pow_pos _)

/-! ### Roundings -/

/-- Rounding error relative to a bound of the argument, when underflow is negligible. -/
theorem rnd_err_rel (q B : ℚ) (hq : |q| ≤ B) (hB : 1 / 2 ^ 1000 ≤ B) :
    |rnd q - q| ≤ B / 2 ^ 52 := by
  have h := abs_rnd_sub_le q
  have e : (1 : ℚ) / 2 ^ 1075 ≤ B / 2 ^ 53 := by
    have e1 : (1 : ℚ) / 2 ^ 1075 = 1 / 2 ^ 1000 * (1 / 2 ^ 75) := by
      rw [div_mul_div_comm, one_mul, ← pow_add]
    rw [e1]
    have : (0 : ℚ) ≤ 1 / 2 ^ 1000 := div_nonneg zero_le_one (pow_nonneg (by norm_num) _)
    generalize (1 : ℚ) / 2 ^ 1000 = A at *
    have h3 : A * (1 / 2 ^ 75) ≤ A / 2 ^ 53 := by linarith
    have h4 : A / 2 ^ 53 ≤ B / 2 ^ 53 := by linarith
    exact h3.trans h4
  generalize (1 : ℚ) / 2 ^ 1075 = η at *
  clear hB
  have e2 : |q| / 2 ^ 53 ≤ B / 2 ^ 53 := by linarith
  have e3 : B / 2 ^ 53 + B / 2 ^ 53 = B / 2 ^ 52 := by ring
  linarith

/-- The width computed by the configuration: close to `(max - min) * 2^p / (2^p - 1)`. -/
theorem delta_err (D Q M1 mg dl : ℚ) (hD : 0 < D) (hQ0 : 0 < Q)
    (h1 : |M1 - D| ≤ D / 2 ^ 52) (h2 : |mg - M1 * Q| ≤ M1 * Q / 2 ^ 52)
    (h3 : |dl - (M1 + mg)| ≤ (M1 + mg) / 2 ^ 52) :
    |dl - D * (1 + Q)| ≤ D * (1 + Q) / 2 ^ 50 := by
  rw [abs_le] at *
  obtain ⟨h1a, h1b⟩ := h1
  obtain ⟨h2a, h2b⟩ := h2
  obtain ⟨h3a, h3b⟩ := h3
  have hDQ : 0 < D * Q := mul_pos hD hQ0
  have ha : (M1 - D) * Q ≤ D / 2 ^ 52 * Q := mul_le_mul_of_nonneg_right h1b hQ0.le
  have hb : -(D / 2 ^ 52) * Q ≤ (M1 - D) * Q := mul_le_mul_of_nonneg_right h1a hQ0.le
  have e1 : (M1 - D) * Q = M1 * Q - D * Q := by ring
  have e2 : D / 2 ^ 52 * Q = D * Q / 2 ^ 52 := by ring
  have e3 : -(D / 2 ^ 52) * Q = -(D * Q / 2 ^ 52) := by ring
  have e4 : D * (1 + Q) = D + D * Q := by ring
  rw [e1, e2] at ha
  rw [e1, e3] at hb
  rw [e4]
  generalize M1 * Q = MQ at *
  generalize D * Q = DQ at *
  constructor <;> norm_num at * <;> linarith

/-- The scaled message: close to `(m - min) / T`. -/
theorem scaled_err (D T dl x m t : ℚ) (hD : 0 < D) (hDT : D ≤ T) (hm0 : 0 ≤ m) (hmD : m ≤ D)
    (hdl : |dl - T| ≤ T / 2 ^ 50) (hx : |x - m| ≤ D / 2 ^ 52)
    (ht : |t - x / dl| ≤ 2 / 2 ^ 52) : |t - m / T| ≤ 1 / 2 ^ 49 := by
  have hT : 0 < T := by linarith
  obtain ⟨d1, d2⟩ := abs_le.1 hdl
  have hdl0 : 0 < dl := by norm_num at d1 d2; linarith
  have hs0 : 0 ≤ m / T := div_nonneg hm0 hT.le
  have hs1 : m / T ≤ 1 := (div_le_one hT).2 (by linarith)
  have hms : m = m / T * T := by field_simp
  have hy : x = x / dl * dl := by field_simp
  generalize m / T = s at *
  generalize x / dl = y at *
  have e : (y - s) * dl = (x - m) + s * (T - dl) := by rw [hms, hy]; ring
  have h1 : |(y - s) * dl| ≤ D / 2 ^ 52 + T / 2 ^ 50 := by
    rw [e]
    refine (abs_add_le _ _).trans (add_le_add hx ?_)
    rw [abs_mul, abs_of_nonneg hs0, abs_sub_comm]
    calc s * |dl - T| ≤ 1 * |dl - T| := mul_le_mul_of_nonneg_right hs1 (abs_nonneg _)
      _ ≤ T / 2 ^ 50 := by rw [one_mul]; exact hdl
  have h2 : |y - s| ≤ 6 / 2 ^ 52 := by
    rw [abs_mul, abs_of_pos hdl0] at h1
    by_contra hc
    push Not at hc
    have h3 : 6 / 2 ^ 52 * dl < |y - s| * dl := mul_lt_mul_of_pos_right hc hdl0
    norm_num at *
    linarith
  have h4 := abs_add_le (t - y) (y - s)
  rw [sub_add_sub_cancel] at h4
  norm_num at *
  linarith

/-- From the decoded integer back to the message. -/
theorem decoded_err (a b T dl s g E y z out : ℚ) (hT : 0 < T)
    (hTab : T ≤ 2 * (|a| + |b|)) (hs0 : 0 ≤ s) (hs1 : s ≤ 1) (hg : g ≤ 1) (hg0 : 0 ≤ g)
    (hdl : |dl - T| ≤ T / 2 ^ 50) (hE : |E - s| ≤ g + 1 / 2 ^ 49) (hy : |y - E| ≤ 1 / 2 ^ 54)
    (hz : |z - y * dl| ≤ 4 * T / 2 ^ 52)
    (hout : |out - (z + a)| ≤ (4 * T + |a|) / 2 ^ 52) :
    |out - (s * T + a)| ≤ g * T + (|a| + |b|) / 2 ^ 45 := by
  obtain ⟨d1, d2⟩ := abs_le.1 hdl
  have hdl0 : 0 < dl := by norm_num at d1 d2; linarith
  have hys : |y - s| ≤ g + 9 / 2 ^ 52 := by
    have := abs_add_le (y - E) (E - s)
    rw [sub_add_sub_cancel] at this
    norm_num at *
    linarith
  have h1 : |y * dl - s * T| ≤ g * T + 20 * T / 2 ^ 52 := by
    have e : y * dl - s * T = (y - s) * dl + s * (dl - T) := by ring
    rw [e]
    refine (abs_add_le _ _).trans ?_
    rw [abs_mul, abs_mul, abs_of_pos hdl0, abs_of_nonneg hs0]
    have h2 : s * |dl - T| ≤ T / 2 ^ 50 := by
      calc s * |dl - T| ≤ 1 * |dl - T| := mul_le_mul_of_nonneg_right hs1 (abs_nonneg _)
        _ ≤ T / 2 ^ 50 := by rw [one_mul]; exact hdl
    have h3 : |y - s| * dl ≤ (g + 9 / 2 ^ 52) * (T + T / 2 ^ 50) :=
      mul_le_mul hys (by linarith) hdl0.le (by norm_num; linarith)
    have e2 : (g + 9 / 2 ^ 52) * (T + T / 2 ^ 50) =
        g * T + (g * T) / 2 ^ 50 + 9 / 2 ^ 52 * (T + T / 2 ^ 50) := by ring
    have hgT : g * T ≤ T := by nlinarith
    have hgT0 : 0 ≤ g * T := by positivity
    rw [e2] at h3
    generalize g * T = gT at *
    norm_num at *
    linarith
  have h4 := abs_add_le (out - (z + a)) ((z - y * dl) + (y * dl - s * T))
  have h5 := abs_add_le (z - y * dl) (y * dl - s * T)
  have e : out - (z + a) + ((z - y * dl) + (y * dl - s * T)) = out - (s * T + a) := by ring
  rw [e] at h4
  have hb := abs_nonneg b
  have ha := abs_nonneg a
  generalize g * T = gT at *
  generalize |out - (s * T + a)| = A at *
  generalize |a| = aa at *
  generalize |b| = bb at *
  norm_num at *
  linarith

/-! ### The whole path -/

/-- Padding away and back: the low bits are cleared. -/
theorem pad_toNat {w : ℕ} (m : Build) (pad : ℕ) (hpad : pad < w) (x : BitVec w) :
    ∃ y z : BitVec w, addPadding m x pad = some y ∧ removePadding m y pad = some z ∧
      z.toNat ≤ x.toNat ∧ x.toNat < z.toNat + 2 ^ pad := by
  unfold addPadding removePadding
  by_cases h : pad > 0
  · refine ⟨x >>> pad, (x >>> pad) <<< pad, ?_, ?_, ?_⟩
    · rw [if_pos h, shr_ok m x pad hpad]
    · rw [if_pos h, shl_ok m _ pad hpad]
    · have e : ((x >>> pad) <<< pad).toNat = x.toNat / 2 ^ pad * 2 ^ pad := by
        rw [BitVec.toNat_shiftLeft, BitVec.toNat_ushiftRight, Nat.shiftRight_eq_div_pow,
          Nat.shiftLeft_eq]
        exact Nat.mod_eq_of_lt (lt_of_le_of_lt (Nat.div_mul_le_self _ _) x.isLt)
      rw [e]
      refine ⟨Nat.div_mul_le_self _ _, ?_⟩
      have := Nat.lt_div_mul_add (a := x.toNat) (Nat.two_pow_pos pad)
      omega
  · have h0 : pad = 0 := by omega
    subst h0
    exact ⟨x, x, by simp, by simp, le_rfl, by simp⟩

/-- The integer part of decoding: the value handed to `into_torus` is as close to the ideal position
`s * 2^w` as the encoded one, up to the padding. -/
theorem tmp_err {w : ℕ} (p pad : ℕ) (hp : 1 ≤ p) (hp46 : p ≤ 46) (hpw : p + 1 < w)
    (E tmp : BitVec w) (s t : ℚ) (hs : s * 2 ^ p ≤ 2 ^ p - 1) (hts : |t - s| ≤ 1 / 2 ^ 49)
    (hE : |(E.toNat : ℚ) - t * 2 ^ w| ≤ 1)
    (h1 : tmp.toNat ≤ E.toNat) (h2 : E.toNat < tmp.toNat + 2 ^ pad) :
    |((if ((1#w <<< (p + 1)) - 1#w) <<< (w - p) < tmp then closestRepresentable p 1 tmp
        else tmp).toNat : ℚ) / 2 ^ w - s| ≤ 2 ^ pad / 2 ^ w + 1 / 2 ^ 49 := by
  have hst := start_toNat (w := w) p hp hpw
  have hW : (0 : ℚ) < 2 ^ w := by positivity
  have hpad : (1 : ℚ) ≤ 2 ^ pad := one_le_pow₀ (by norm_num)
  have h1' : (tmp.toNat : ℚ) ≤ E.toNat := by exact_mod_cast h1
  have h2' : (E.toNat : ℚ) + 1 ≤ tmp.toNat + 2 ^ pad := by exact_mod_cast h2
  obtain ⟨e1, e2⟩ := abs_le.1 hE
  obtain ⟨t1, t2⟩ := abs_le.1 hts
  have tw1 : t * 2 ^ w ≤ s * 2 ^ w + 1 / 2 ^ 49 * 2 ^ w := by nlinarith
  have tw2 : s * 2 ^ w - 1 / 2 ^ 49 * 2 ^ w ≤ t * 2 ^ w := by nlinarith
  -- it is enough to bound the unscaled difference
  suffices H : ∀ X : ℕ, |(X : ℚ) - s * 2 ^ w| ≤ 2 ^ pad + 1 / 2 ^ 49 * 2 ^ w →
      |(X : ℚ) / 2 ^ w - s| ≤ 2 ^ pad / 2 ^ w + 1 / 2 ^ 49 by
    apply H
    split
    · rename_i hlt
      have hlt' : (2 ^ p - 1) * 2 ^ (w - p) < tmp.toNat := by
        rw [← hst]; exact BitVec.lt_def.1 hlt
      -- the excess over the start of the granule is below half a granule
      have eW : (2 : ℚ) ^ w = 2 ^ p * 2 ^ (w - p) := by rw [← pow_add]; congr 1; omega
      have eH : (2 : ℚ) ^ (w - p) = 2 * 2 ^ (w - p - 1) := by rw [← pow_succ']; congr 1; omega
      have hH : (2 : ℚ) ≤ 2 ^ (w - p - 1) := by
        calc (2 : ℚ) = 2 ^ 1 := (pow_one 2).symm
          _ ≤ 2 ^ (w - p - 1) := pow_le_pow_right₀ (by norm_num) (by omega)
      have hS : ((((2 ^ p - 1) * 2 ^ (w - p) : ℕ)) : ℚ) = (2 ^ p - 1) * 2 ^ (w - p) := by
        push_cast [Nat.one_le_two_pow]; ring
      have hsS : s * 2 ^ w ≤ (2 ^ p - 1) * 2 ^ (w - p) := by
        rw [eW, ← mul_assoc]
        exact mul_le_mul_of_nonneg_right hs (by positivity)
      have hsmall : (1 : ℚ) / 2 ^ 49 * 2 ^ w ≤ 2 ^ (w - p - 1) / 4 := by
        rw [eW, eH]
        have : (2 : ℚ) ^ p ≤ 2 ^ 46 := pow_le_pow_right₀ (by norm_num) hp46
        have hHp : (0 : ℚ) < 2 ^ (w - p - 1) := by positivity
        generalize (2 : ℚ) ^ (w - p - 1) = H at *
        have h6 : (2 : ℚ) ^ p * H ≤ 2 ^ 46 * H := mul_le_mul_of_nonneg_right this hHp.le
        have e6 : 1 / 2 ^ 49 * ((2 : ℚ) ^ p * (2 * H)) = 1 / 2 ^ 48 * (2 ^ p * H) := by ring
        rw [e6]
        norm_num at h6 ⊢
        linarith
      have hlt2 : tmp.toNat < (2 ^ p - 1) * 2 ^ (w - p) + 2 ^ (w - p - 1) := by
        have : (tmp.toNat : ℚ) < ((((2 ^ p - 1) * 2 ^ (w - p) : ℕ)) : ℚ) + 2 ^ (w - p - 1) := by
          rw [hS]
          generalize (1 : ℚ) / 2 ^ 49 * 2 ^ w = c at *
          linarith
        exact_mod_cast this
      rw [closest_last p hpw tmp hlt'.le hlt2, hS]
      have hlt3 : ((2 : ℚ) ^ p - 1) * 2 ^ (w - p) < tmp.toNat := by
        rw [← hS]; exact_mod_cast hlt'
      have hc0 : (0 : ℚ) ≤ 1 / 2 ^ 49 * 2 ^ w := by positivity
      generalize (1 : ℚ) / 2 ^ 49 * 2 ^ w = c at *
      rw [abs_le]
      constructor <;> linarith
    · have hc0 : (0 : ℚ) ≤ 1 / 2 ^ 49 * 2 ^ w := by positivity
      generalize (1 : ℚ) / 2 ^ 49 * 2 ^ w = c at *
      rw [abs_le]
      constructor <;> linarith
  intro X hX
  have e : (X : ℚ) / 2 ^ w - s = ((X : ℚ) - s * 2 ^ w) / 2 ^ w := by field_simp
  rw [e, abs_div, abs_of_pos hW, div_le_iff₀ hW]
  refine hX.trans_eq ?_
  field_simp

theorem big_pow : (8 : ℚ) * 2 ^ 900 ≤ 2 ^ 1022 := by
  have h := pow_le_1022 903 (by norm_num)
  have e : (2 : ℚ) ^ 903 = 2 ^ 900 * 2 ^ 3 := pow_add 2 900 3
  rw [e] at h
  clear e
  generalize (2 : ℚ) ^ 1022 = A at *
  generalize (2 : ℚ) ^ 900 = B at *
  linarith

theorem ofRat_ok (q : ℚ) (h : |q| ≤ 8 * 2 ^ 900) : ofRat q = .fin (rnd q) :=
  ofRat_fin _ (h.trans big_pow)

theorem err_ok (q B : ℚ) (hq : |q| ≤ B) (h : 1 / 2 ^ 900 ≤ B * 2 ^ 64) :
    |rnd q - q| ≤ B / 2 ^ 52 := by
  apply rnd_err_rel q B hq
  have e : (1 : ℚ) / 2 ^ 1000 = 1 / 2 ^ 900 * (1 / 2 ^ 100) := by
    rw [div_mul_div_comm, one_mul, ← pow_add]
  rw [e]
  have h0 : (0 : ℚ) ≤ 1 / 2 ^ 900 := div_nonneg zero_le_one (pow_nonneg (by norm_num) _)
  generalize (1 : ℚ) / 2 ^ 900 = A at *
  norm_num at *
  linarith

theorem asI32_small (p : ℕ) (h : p ≤ 46) : asI32 p = p := by
  unfold asI32
  rw [BitVec.toInt_eq_toNat_cond, BitVec.toNat_ofNat]
  have : p % 2 ^ 32 = p := Nat.mod_eq_of_lt (by omega)
  rw [this, if_pos (by omega)]

/-- The range of magnitudes in which neither overflow nor underflow matters: results below `8 * G` do
not overflow, and the error of a rounding is relative for bounds above `L / 2^64`. -/
structure Scale (G L : ℚ) : Prop where
  ok : ∀ q : ℚ, |q| ≤ 8 * G → ofRat q = .fin (rnd q)
  err : ∀ q B : ℚ, |q| ≤ B → L ≤ B * 2 ^ 64 → |rnd q - q| ≤ B / 2 ^ 52
  big : 2 ^ 64 ≤ G
  lpos : 0 < L
  lone : L ≤ 1

theorem scale_f64 : Scale (2 ^ 900) (1 / 2 ^ 900) where
  ok := ofRat_ok
  err := err_ok
  big := pow_le_pow_right₀ (by norm_num) (by norm_num)
  lpos := div_pos zero_lt_one (pow_pos (by norm_num) _)
  lone := by
    have : (1 : ℚ) ≤ 2 ^ 900 := one_le_pow₀ (by norm_num)
    exact div_le_one_of_le₀ this (zero_le_one.trans this)

/-- Creating an encoder: its offset is the lower bound, its width is close to the ideal one. -/
theorem create_ok (a b G L : ℚ) (hS : Scale G L) (p pad : ℕ) (hp : 1 ≤ p) (hp46 : p ≤ 46)
    (ha : |a| ≤ G) (hb : |b| ≤ G) (hmin : L ≤ b - a) :
    ∃ dl : ℚ, MinMax.toCommons ⟨.fin a, .fin b, p, pad⟩ = some ⟨.fin a, .fin dl, p, pad, false⟩ ∧
      |dl - span a b p| ≤ span a b p / 2 ^ 50 := by
  have hP1 : (1 : ℚ) ≤ 2 ^ p - 1 := by
    have : (2 : ℚ) ^ 1 ≤ 2 ^ p := pow_le_pow_right₀ (by norm_num) hp
    linarith
  have hP : (0 : ℚ) < 2 ^ p - 1 := by linarith
  have hP2 : (2 : ℚ) ^ p - 1 ≤ 2 ^ 46 := by
    have : (2 : ℚ) ^ p ≤ 2 ^ 46 := pow_le_pow_right₀ (by norm_num) hp46
    linarith
  have hPi : ((2 ^ p - 1 : ℤ) : ℚ) = 2 ^ p - 1 := by push_cast; rfl
  obtain ⟨a1, a2⟩ := abs_le.1 ha
  obtain ⟨b1, b2⟩ := abs_le.1 hb
  have hL := hS.lpos
  have hbig := hS.big
  have hD : 0 < b - a := by linarith
  have hspan : span a b p = (b - a) * (1 + 1 / (2 ^ p - 1)) := by
    unfold span
    field_simp
    ring
  -- 2^p - 1
  have s2 : (F64.powi2 (asI32 p)).sub (.fin 1) = .fin (2 ^ p - 1) := by
    have h8 : |(2 : ℚ) ^ p - 1| ≤ 8 * G := by rw [abs_of_pos hP]; norm_num at *; linarith
    rw [asI32_small p hp46, powi2_eq p (by omega) (by omega), fin_sub, zpow_natCast, hS.ok _ h8,
      ← hPi, rnd_int]
    rw [abs_of_nonneg (by have : (1 : ℤ) ≤ 2 ^ p := one_le_pow₀ (by norm_num); omega)]
    have : (2 : ℤ) ^ p ≤ 2 ^ 46 := pow_le_pow_right₀ (by norm_num) hp46
    omega
  -- max - min
  have s1 : (F64.fin b).sub (.fin a) = .fin (rnd (b - a)) := by
    rw [fin_sub]; exact hS.ok _ (by rw [abs_of_pos hD]; linarith)
  have hM := hS.err (b - a) (b - a) (by rw [abs_of_pos hD]) (by norm_num; linarith)
  generalize hM1 : rnd (b - a) = M1 at *
  obtain ⟨m1, m2⟩ := abs_le.1 hM
  have hM0 : 0 < M1 := by norm_num at m1; linarith
  -- the margin
  have hQ0 : (0 : ℚ) < 1 / (2 ^ p - 1) := by positivity
  have hQ1 : (1 : ℚ) / (2 ^ p - 1) ≤ 1 := by rw [div_le_one hP]; exact hP1
  have hQ2 : (1 : ℚ) / 2 ^ 46 ≤ 1 / (2 ^ p - 1) :=
    div_le_div_of_nonneg_left (by norm_num) hP hP2
  have s3 : (F64.fin M1).div (.fin (2 ^ p - 1)) = ofRat (M1 * (1 / (2 ^ p - 1))) := by
    unfold F64.div
    dsimp only
    rw [if_neg hP.ne', mul_one_div]
  generalize hQ : (1 : ℚ) / (2 ^ p - 1) = Q at *
  have hMQ0 : 0 < M1 * Q := mul_pos hM0 hQ0
  have hMQ1 : M1 * Q ≤ M1 := by nlinarith
  have hMQ2 : M1 * (1 / 2 ^ 46) ≤ M1 * Q := mul_le_mul_of_nonneg_left hQ2 hM0.le
  have hmg := hS.err (M1 * Q) (M1 * Q) (by rw [abs_of_pos hMQ0]) (by norm_num at *; linarith)
  rw [hS.ok _ (by rw [abs_of_pos hMQ0]; norm_num at m2; linarith)] at s3
  generalize hmg1 : rnd (M1 * Q) = mg at *
  obtain ⟨g1, g2⟩ := abs_le.1 hmg
  have hmg0 : 0 < mg := by norm_num at g1; linarith
  have hsum0 : 0 < M1 + mg := by linarith
  have hdl := hS.err (M1 + mg) (M1 + mg) (by rw [abs_of_pos hsum0]) (by norm_num at *; linarith)
  have s4 : (F64.fin M1).add (.fin mg) = .fin (rnd (M1 + mg)) :=
    hS.ok _ (by rw [abs_of_pos hsum0]; norm_num at g2 m2; linarith)
  refine ⟨rnd (M1 + mg), ?_, ?_⟩
  · unfold MinMax.toCommons
    dsimp only
    have hlt : (F64.fin a).lt (.fin b) = true := by
      unfold F64.lt; exact decide_eq_true (by linarith)
    rw [hlt, if_neg (by simp), if_neg (by omega), s1, s2, s3, s4]
  · rw [hspan]
    exact delta_err (b - a) Q M1 mg _ hD hQ0 hM hmg hdl

theorem span_bounds (a b : ℚ) (p : ℕ) (hp : 1 ≤ p) (hab : a < b) :
    b - a ≤ span a b p ∧ span a b p ≤ 2 * (b - a) ∧ (b - a) * 2 ^ p = span a b p * (2 ^ p - 1) ∧
      (b - a) * (2 ^ p + 1) ≤ span a b p * 2 ^ p := by
  have hP1 : (1 : ℚ) ≤ 2 ^ p - 1 := by
    have : (2 : ℚ) ^ 1 ≤ 2 ^ p := pow_le_pow_right₀ (by norm_num) hp
    linarith
  have hP : (0 : ℚ) < 2 ^ p - 1 := by linarith
  have hD : 0 < b - a := by linarith
  unfold span
  generalize (2 : ℚ) ^ p = P at *
  generalize b - a = D at *
  refine ⟨?_, ?_, ?_, ?_⟩
  · rw [le_div_iff₀ hP]; nlinarith
  · rw [div_le_iff₀ hP]; nlinarith
  · field_simp
  · rw [div_mul_eq_mul_div, le_div_iff₀ hP]; nlinarith

/-- A message of the requested range is not reported out of range. -/
theorem not_outOfRange (a b dl G L : ℚ) (hS : Scale G L) (p pad : ℕ) (hp : 1 ≤ p)
    (hp46 : p ≤ 46) (hb : Rep b) (ha' : |a| ≤ G) (hb' : |b| ≤ G) (hab : a < b)
    (hdl : |dl - span a b p| ≤ span a b p / 2 ^ 50) (x : ℚ) (h1 : a ≤ x) (h2 : x ≤ b) :
    FloatEncoder.outOfRange ⟨.fin a, .fin dl, p, pad, false⟩ (.fin x) = false := by
  obtain ⟨s1, s2, s3, s4⟩ := span_bounds a b p hp hab
  obtain ⟨d1, d2⟩ := abs_le.1 hdl
  obtain ⟨a1, a2⟩ := abs_le.1 ha'
  obtain ⟨b1, b2⟩ := abs_le.1 hb'
  have hle : b ≤ a + dl := by
    have hp2 : (2 : ℚ) ^ p ≤ 2 ^ 46 := pow_le_pow_right₀ (by norm_num) hp46
    have hD : 0 < b - a := by linarith
    -- one granule is more than the error
    have h3 : (b - a) ≤ (span a b p - (b - a)) * 2 ^ 46 := by
      have h5 : (span a b p - (b - a)) * 2 ^ p ≤ (span a b p - (b - a)) * 2 ^ 46 :=
        mul_le_mul_of_nonneg_left hp2 (by linarith)
      have e : (span a b p - (b - a)) * 2 ^ p = span a b p * 2 ^ p - (b - a) * 2 ^ p := by ring
      rw [e] at h5
      have e' : (b - a) * (2 ^ p + 1) = (b - a) * 2 ^ p + (b - a) := by ring
      rw [e'] at s4
      linarith
    generalize span a b p = T at *
    norm_num at *
    linarith
  have hok : (F64.fin a).add (.fin dl) = .fin (rnd (a + dl)) :=
    hS.ok _ (by rw [abs_le]; norm_num at d1 d2; constructor <;> linarith)
  have hge := le_rnd_of_rep hb hle
  unfold FloatEncoder.outOfRange
  dsimp only
  rw [hok]
  unfold F64.lt
  dsimp only
  rw [decide_eq_false (by linarith), decide_eq_false (by linarith)]
  rfl

theorem add_fin (a b : ℚ) : (F64.fin a).add (.fin b) = ofRat (a + b) := rfl
theorem mul_fin (a b : ℚ) : (F64.fin a).mul (.fin b) = ofRat (a * b) := rfl

theorem le_one_of_scaled {p : ℕ} {s : ℚ} (hs : s * 2 ^ p ≤ 2 ^ p - 1) : s ≤ 1 := by
  have hP : (0 : ℚ) < 2 ^ p := by positivity
  by_contra h
  push Not at h
  nlinarith

/-- Encoding a message of the requested range: before the padding is inserted, the integer is within
one unit of a position `t` close to the ideal one. -/
theorem encode_core (w : ℕ) (hw : w ≤ 64) (m : Build) (a b dl G L : ℚ) (hS : Scale G L)
    (p pad : ℕ) (hp : 1 ≤ p) (hp46 : p ≤ 46) (hpw : p + 1 < w)
    (hb : Rep b) (ha' : |a| ≤ G) (hb' : |b| ≤ G) (hmin : L ≤ b - a)
    (hdl : |dl - span a b p| ≤ span a b p / 2 ^ 50) (x : ℚ) (h1 : a ≤ x) (h2 : x ≤ b) :
    ∃ (E : BitVec w) (s t : ℚ),
      FloatEncoder.encode w m ⟨.fin a, .fin dl, p, pad, false⟩ (.fin x) = addPadding m E pad ∧
      0 ≤ s ∧ s * 2 ^ p ≤ 2 ^ p - 1 ∧ s * span a b p = x - a ∧ |t - s| ≤ 1 / 2 ^ 49 ∧
      |(E.toNat : ℚ) - t * 2 ^ w| ≤ 1 := by
  have hL := hS.lpos
  have hL1 := hS.lone
  have hbig := hS.big
  have hab : a < b := by linarith
  have hD : 0 < b - a := by linarith
  have hrange := not_outOfRange a b dl G L hS p pad hp hp46 hb ha' hb' hab hdl x h1 h2
  obtain ⟨s1, s2, s3, -⟩ := span_bounds a b p hp hab
  generalize hT : span a b p = T at *
  have hT0 : 0 < T := by linarith
  obtain ⟨d1, d2⟩ := abs_le.1 hdl
  have hdl0 : 0 < dl := by norm_num at d1; linarith
  obtain ⟨a1, a2⟩ := abs_le.1 ha'
  obtain ⟨b1, b2⟩ := abs_le.1 hb'
  have hvalid : FloatEncoder.isValid ⟨.fin a, .fin dl, p, pad, false⟩ = true := by
    unfold FloatEncoder.isValid F64.le
    dsimp only
    rw [decide_eq_false (by linarith)]
    simp only [Bool.or_false, Bool.not_eq_true', beq_eq_false_iff_ne]
    omega
  -- the subtraction
  have f1 : (F64.fin x).sub (.fin a) = .fin (rnd (x - a)) := by
    rw [fin_sub]; exact hS.ok _ (by rw [abs_le]; constructor <;> linarith)
  have hx := hS.err (x - a) (b - a) (by rw [abs_le]; constructor <;> linarith)
    (by norm_num; linarith)
  have hX0 : 0 ≤ rnd (x - a) := rnd_nonneg (by linarith)
  generalize rnd (x - a) = X at *
  obtain ⟨x1, x2⟩ := abs_le.1 hx
  -- the division
  have hXd : X / dl ≤ 2 := by
    rw [div_le_iff₀ hdl0]; norm_num at *; linarith
  have hXd0 : 0 ≤ X / dl := div_nonneg hX0 hdl0.le
  have f2 : (F64.fin X).div (.fin dl) = .fin (rnd (X / dl)) := by
    unfold F64.div
    dsimp only
    rw [if_neg hdl0.ne']
    exact hS.ok _ (by rw [abs_of_nonneg hXd0]; norm_num at hbig; linarith)
  have ht := hS.err (X / dl) 2 (by rw [abs_of_nonneg hXd0]; exact hXd) (by norm_num; linarith)
  have hts := scaled_err (b - a) T dl X (x - a) _ hD s1 (by linarith) (by linarith) hdl hx ht
  have htrep : Rep (rnd (X / dl)) := rep_rnd _
  have ht0 : 0 ≤ rnd (X / dl) := rnd_nonneg hXd0
  generalize rnd (X / dl) = t at *
  -- the ideal position
  have hs0 : 0 ≤ (x - a) / T := div_nonneg (by linarith) hT0.le
  have hs1 : (x - a) / T * 2 ^ p ≤ 2 ^ p - 1 := by
    rw [div_mul_eq_mul_div, div_le_iff₀ hT0, mul_comm (2 ^ p - 1 : ℚ), ← s3]
    exact mul_le_mul_of_nonneg_right (by linarith) (by positivity)
  have hsT : (x - a) / T * T = x - a := by field_simp
  generalize (x - a) / T = s at *
  have hP46 : (2 : ℚ) ^ p ≤ 2 ^ 46 := pow_le_pow_right₀ (by norm_num) hp46
  have hPpos : (0 : ℚ) < 2 ^ p := by positivity
  have hs2 : s ≤ 1 - 1 / 2 ^ p := by
    have : s = s * 2 ^ p / 2 ^ p := by field_simp
    rw [this]
    have e : (1 : ℚ) - 1 / 2 ^ p = (2 ^ p - 1) / 2 ^ p := by field_simp
    rw [e]
    exact div_le_div_of_nonneg_right hs1 hPpos.le
  have htw : t * 2 ^ w + 1 ≤ 2 ^ w := by
    obtain ⟨t1, t2⟩ := abs_le.1 hts
    have eW : (2 : ℚ) ^ w = 2 ^ p * 2 ^ (w - p) := by rw [← pow_add]; congr 1; omega
    have h4 : (4 : ℚ) ≤ 2 ^ (w - p) := by
      calc (4 : ℚ) = 2 ^ 2 := by norm_num
        _ ≤ 2 ^ (w - p) := pow_le_pow_right₀ (by norm_num) (by omega)
    have h5 : (1 : ℚ) / 2 ^ 49 ≤ 1 / 2 ^ p / 2 := by
      rw [div_div]
      exact div_le_div_of_nonneg_left (by norm_num) (by positivity) (by norm_num at hP46 ⊢; linarith)
    have h6 : t ≤ 1 - 1 / 2 ^ p / 2 := by linarith
    have h7 : t * 2 ^ w ≤ (1 - 1 / 2 ^ p / 2) * 2 ^ w :=
      mul_le_mul_of_nonneg_right h6 (by positivity)
    have h8 : (1 - 1 / 2 ^ p / 2) * (2 : ℚ) ^ w = 2 ^ w - 2 ^ (w - p) / 2 := by
      rw [eW]; field_simp
    rw [h8] at h7
    linarith
  have hE := fromTorus_unit w (by omega) (by omega) t htrep ht0 htw
  generalize hEdef : fromTorus w (.fin t) = E at *
  refine ⟨E, s, t, ?_, hs0, hs1, hsT, hts, hE⟩
  unfold FloatEncoder.encode
  rw [hrange, hvalid]
  simp only [Bool.false_eq_true, if_false, f1, f2, hEdef, roundIf, Option.bind_eq_bind,
    Option.bind_some, reduceCtorEq]

/-- Decoding an integer whose rounded version is close to the ideal position. -/
theorem decode_core (w : ℕ) (hw : w ≤ 64) (m : Build) (a b dl G L : ℚ) (hS : Scale G L)
    (p pad : ℕ) (hp : 1 ≤ p) (hpw : p + 1 < w) (ha' : |a| ≤ G) (hb' : |b| ≤ G) (hmin : L ≤ b - a)
    (hdl : |dl - span a b p| ≤ span a b p / 2 ^ 50) (c tmp : BitVec w)
    (htmp : removePadding m c pad = some tmp) (s g : ℚ) (hs0 : 0 ≤ s) (hs3 : s ≤ 1)
    (hg0 : 0 ≤ g) (hg : g ≤ 1)
    (htmpE : |((if ((1#w <<< (p + 1)) - 1#w) <<< (w - p) < tmp then closestRepresentable p 1 tmp
        else tmp).toNat : ℚ) / 2 ^ w - s| ≤ g + 1 / 2 ^ 49) :
    ∃ y : ℚ, FloatEncoder.decode m ⟨.fin a, .fin dl, p, pad, false⟩ c = some (.fin y) ∧
      |y - (s * span a b p + a)| ≤ span a b p * g + (|a| + |b|) / 2 ^ 45 := by
  have hL := hS.lpos
  have hL1 := hS.lone
  have hbig := hS.big
  have hab : a < b := by linarith
  have hD : 0 < b - a := by linarith
  obtain ⟨s1, s2, s3, -⟩ := span_bounds a b p hp hab
  have hTab : span a b p ≤ 2 * (|a| + |b|) := by
    have := neg_abs_le a
    have := le_abs_self b
    linarith
  generalize hT : span a b p = T at *
  have hT0 : 0 < T := by linarith
  obtain ⟨d1, d2⟩ := abs_le.1 hdl
  have hdl0 : 0 < dl := by norm_num at d1; linarith
  obtain ⟨a1, a2⟩ := abs_le.1 ha'
  obtain ⟨b1, b2⟩ := abs_le.1 hb'
  have hvalid : FloatEncoder.isValid ⟨.fin a, .fin dl, p, pad, false⟩ = true := by
    unfold FloatEncoder.isValid F64.le
    dsimp only
    rw [decide_eq_false (by linarith)]
    simp only [Bool.or_false, Bool.not_eq_true', beq_eq_false_iff_ne]
    omega
  generalize hfin : (if ((1#w <<< (p + 1)) - 1#w) <<< (w - p) < tmp then
    closestRepresentable p 1 tmp else tmp) = out at htmpE
  obtain ⟨N, hN, -, hN1, -, hN2⟩ := intoTorus_eq (w := w) (by omega) out
  have hW : (0 : ℚ) < 2 ^ w := by positivity
  have hy : |(N : ℚ) / 2 ^ w - (out.toNat : ℚ) / 2 ^ w| ≤ 1 / 2 ^ 54 := by
    rw [← sub_div, abs_div, abs_of_pos hW, div_le_div_iff₀ hW (by norm_num), one_mul]
    exact_mod_cast hN2
  have hy0 : 0 ≤ (N : ℚ) / 2 ^ w := div_nonneg (Nat.cast_nonneg _) hW.le
  have hy1 : (N : ℚ) / 2 ^ w ≤ 1 := by
    rw [div_le_one hW]; exact_mod_cast hN1
  generalize (N : ℚ) / 2 ^ w = y at *
  have hydl : y * dl ≤ dl := by nlinarith
  have hydl0 : 0 ≤ y * dl := mul_nonneg hy0 hdl0.le
  have g1 : (F64.fin y).mul (.fin dl) = .fin (rnd (y * dl)) := by
    rw [mul_fin]; exact hS.ok _ (by rw [abs_of_nonneg hydl0]; norm_num at *; linarith)
  have hz := hS.err (y * dl) (4 * T) (by rw [abs_of_nonneg hydl0]; norm_num at *; linarith)
    (by norm_num; linarith)
  have hz0 : 0 ≤ rnd (y * dl) := rnd_nonneg hydl0
  generalize rnd (y * dl) = z at *
  obtain ⟨z1, z2⟩ := abs_le.1 hz
  have hzT : z ≤ 3 * T := by norm_num at *; linarith
  have hza : |z + a| ≤ 4 * T + |a| := by
    refine (abs_add_le _ _).trans ?_
    rw [abs_of_nonneg hz0]; linarith
  have g2 : (F64.fin z).add (.fin a) = .fin (rnd (z + a)) := by
    rw [add_fin]
    refine hS.ok _ ?_
    rw [abs_le]; constructor <;> linarith
  have ho := hS.err (z + a) (4 * T + |a|) hza (by
    have := abs_nonneg a
    norm_num; linarith)
  have final := decoded_err a b T dl s g _ y z _ hT0 hTab hs0 hs3 hg hg0 hdl htmpE hy hz ho
  rw [mul_comm g T] at final
  refine ⟨rnd (z + a), ?_, final⟩
  unfold FloatEncoder.decode
  rw [hvalid]
  simp only [Bool.false_eq_true, if_false, roundIf, Option.bind_eq_bind, Option.bind_some,
    reduceCtorEq]
  rw [htmp]
  simp only [Option.bind_some]
  rw [shl_ok m _ _ hpw]
  simp only [Option.bind_some]
  rw [subUsize_ok m w p (by omega) (by omega)]
  simp only [Option.bind_some]
  rw [shl_ok m _ _ (by omega)]
  simp only [Option.bind_some]
  rw [roundTo_ok (by omega) m p hp (by omega)]
  simp only [Option.bind_some]
  rw [hfin, hN, g1, g2]

/-- Encoding then decoding a message of the requested range. -/
theorem roundtrip_core (w : ℕ) (hw : w ≤ 64) (m : Build) (a b dl G L : ℚ) (hS : Scale G L)
    (p pad : ℕ) (hp : 1 ≤ p) (hp46 : p ≤ 46) (hpw : p + 1 < w) (hpad : pad < w)
    (hb : Rep b) (ha' : |a| ≤ G) (hb' : |b| ≤ G) (hmin : L ≤ b - a)
    (hdl : |dl - span a b p| ≤ span a b p / 2 ^ 50) (x : ℚ) (h1 : a ≤ x) (h2 : x ≤ b) :
    ∃ (c : BitVec w) (y : ℚ),
      FloatEncoder.encode w m ⟨.fin a, .fin dl, p, pad, false⟩ (.fin x) = some c ∧
      FloatEncoder.decode m ⟨.fin a, .fin dl, p, pad, false⟩ c = some (.fin y) ∧
      |y - x| ≤ span a b p * (2 ^ pad / 2 ^ w) + (|a| + |b|) / 2 ^ 45 := by
  obtain ⟨E, s, t, henc, hs0, hs1, hsT, hts, hE⟩ :=
    encode_core w hw m a b dl G L hS p pad hp hp46 hpw hb ha' hb' hmin hdl x h1 h2
  obtain ⟨c, tmp, hc, htmp, hle, hlt⟩ := pad_toNat m pad hpad E
  have htmpE := tmp_err p pad hp hp46 hpw E tmp s t hs1 hts hE hle hlt
  have hW : (0 : ℚ) < 2 ^ w := by positivity
  have hg : (2 : ℚ) ^ pad / 2 ^ w ≤ 1 := by
    rw [div_le_one hW]; exact pow_le_pow_right₀ (by norm_num) hpad.le
  have hg0 : (0 : ℚ) ≤ 2 ^ pad / 2 ^ w := by positivity
  obtain ⟨y, hdec, hy⟩ := decode_core w hw m a b dl G L hS p pad hp hpw ha' hb' hmin hdl c tmp htmp
    s _ hs0 (le_one_of_scaled hs1) hg0 hg htmpE
  rw [hsT, sub_add_cancel] at hy
  exact ⟨c, y, by rw [henc, hc], hdec, hy⟩

/-- The rounding of the last granule absorbs every deviation below half a granule, in both directions:
above the range it comes back to the last value, below it comes back to the first. -/
theorem tmp_err_noise {w : ℕ} (p : ℕ) (hp : 1 ≤ p) (hpw : p + 1 < w) (v : ℤ) (s B : ℚ)
    (hs0 : 0 ≤ s) (hs : s * 2 ^ p ≤ 2 ^ p - 1) (hB : B < 2 ^ (w - p - 1))
    (hv : |(v : ℚ) - s * 2 ^ w| ≤ B) :
    |((if ((1#w <<< (p + 1)) - 1#w) <<< (w - p) < BitVec.ofInt w v then
        closestRepresentable p 1 (BitVec.ofInt w v) else BitVec.ofInt w v).toNat : ℚ) - s * 2 ^ w|
      ≤ B := by
  have hst := start_toNat (w := w) p hp hpw
  have eW : (2 : ℚ) ^ w = 2 ^ p * 2 ^ (w - p) := by rw [← pow_add]; congr 1; omega
  have eH : (2 : ℚ) ^ (w - p) = 2 * 2 ^ (w - p - 1) := by rw [← pow_succ']; congr 1; omega
  have hS : ((((2 ^ p - 1) * 2 ^ (w - p) : ℕ)) : ℚ) = (2 ^ p - 1) * 2 ^ (w - p) := by
    push_cast [Nat.one_le_two_pow]; ring
  have eWS : (2 : ℚ) ^ w = ((((2 ^ p - 1) * 2 ^ (w - p) : ℕ)) : ℚ) + 2 * 2 ^ (w - p - 1) := by
    rw [hS, eW, eH]; ring
  have hsS : s * 2 ^ w ≤ ((((2 ^ p - 1) * 2 ^ (w - p) : ℕ)) : ℚ) := by
    rw [hS, eW, ← mul_assoc]
    exact mul_le_mul_of_nonneg_right hs (by positivity)
  have hsW0 : 0 ≤ s * 2 ^ w := by positivity
  have hHN : ((2 ^ (w - p - 1) : ℕ) : ℚ) = 2 ^ (w - p - 1) := by push_cast; rfl
  have eWN : 2 ^ w = (2 ^ p - 1) * 2 ^ (w - p) + 2 * 2 ^ (w - p - 1) := by exact_mod_cast eWS
  have eHN : 2 ^ (w - p) = 2 * 2 ^ (w - p - 1) := by exact_mod_cast eH
  rw [← hHN] at hB
  obtain ⟨v1, v2⟩ := abs_le.1 hv
  generalize hSN : (2 ^ p - 1) * 2 ^ (w - p) = S at *
  have hpos := Nat.two_pow_pos (w - p - 1)
  generalize hH : 2 ^ (w - p - 1) = H at *
  by_cases hneg : v < 0
  · -- below the range
    have hvH : -(H : ℤ) < v := by
      have : -(H : ℚ) < v := by linarith
      exact_mod_cast this
    have hx := toNat_ofInt_neg w v hneg (by have : (2 ^ w : ℤ) = S + 2 * H := by exact_mod_cast eWN
                                            omega)
    have hx' : ((BitVec.ofInt w v).toNat : ℤ) = v + S + 2 * H := by
      have : (2 ^ w : ℤ) = S + 2 * H := by exact_mod_cast eWN
      omega
    have hlt : ((1#w <<< (p + 1)) - 1#w) <<< (w - p) < BitVec.ofInt w v := by
      rw [BitVec.lt_def, hst]; omega
    rw [if_pos hlt]
    have hc : (closestRepresentable p 1 (BitVec.ofInt w v)).toNat = 0 := by
      rw [closest_toNat p 1 _ (by omega), Nat.one_mul, hH]
      have hq : ((BitVec.ofInt w v).toNat + H) / 2 ^ (w - p) = 2 ^ p := by
        apply Nat.div_eq_of_lt_le
        · have : 2 ^ p * 2 ^ (w - p) = 2 ^ w := by rw [← pow_add]; congr 1; omega
          rw [this, eWN]; omega
        · have : 2 ^ p * 2 ^ (w - p) = 2 ^ w := by rw [← pow_add]; congr 1; omega
          rw [Nat.add_mul, Nat.one_mul, this, eWN, eHN]; omega
      rw [hq, ← pow_add, show p + (w - p) = w by omega, Nat.mod_self]
    rw [hc]
    have hv0 : (v : ℚ) < 0 := by exact_mod_cast hneg
    rw [abs_le]; push_cast
    constructor <;> linarith
  · have hv0 : 0 ≤ v := not_lt.1 hneg
    have hvS : v < S + H := by
      have : (v : ℚ) < ((S : ℕ) : ℚ) + (H : ℕ) := by linarith
      exact_mod_cast this
    have hx := toNat_ofInt_of_bounds w v hv0 (by have : (2 ^ w : ℤ) = S + 2 * H := by exact_mod_cast eWN
                                                 omega)
    have hxq : ((BitVec.ofInt w v).toNat : ℚ) = v := by exact_mod_cast hx
    split
    · rename_i hlt
      rw [BitVec.lt_def, hst] at hlt
      have hc := closest_last p hpw (BitVec.ofInt w v) (by omega) (by rw [hSN, hH]; omega)
      rw [hc, hSN]
      have hvS' : (S : ℚ) < v := by
        rw [← hxq]; exact_mod_cast hlt
      rw [abs_le]; constructor <;> linarith
    · rw [hxq]; exact hv

/-- Removing the padding of a sum. -/
theorem removePadding_add {w : ℕ} (m : Build) (pad : ℕ) (hpad : pad < w) (c : BitVec w) (n : ℤ) :
    removePadding m (c + BitVec.ofInt w n) pad =
      some (BitVec.ofInt w (((c.toNat : ℤ) + n) * 2 ^ pad)) := by
  have e : (c + BitVec.ofInt w n) <<< pad = BitVec.ofInt w (((c.toNat : ℤ) + n) * 2 ^ pad) := by
    apply BitVec.eq_of_toNat_eq
    rw [BitVec.toNat_shiftLeft, Nat.shiftLeft_eq, BitVec.toNat_add, BitVec.toNat_ofInt,
      BitVec.toNat_ofInt]
    zify
    have h0 : (0 : ℤ) < 2 ^ w := by positivity
    rw [Int.toNat_of_nonneg (Int.emod_nonneg _ h0.ne'), Int.toNat_of_nonneg (Int.emod_nonneg _ h0.ne')]
    rw [Int.add_emod_emod, Int.mul_emod, Int.emod_emod, ← Int.mul_emod]
  unfold removePadding
  by_cases h : pad > 0
  · rw [if_pos h, shl_ok m _ pad hpad, e]
  · have h0 : pad = 0 := by omega
    subst h0
    rw [if_neg (by omega)]
    rw [BitVec.shiftLeft_zero] at e
    rw [e]

/-- Encoding, perturbing and decoding. -/
theorem roundtrip_noise_core (w : ℕ) (hw : w ≤ 64) (m : Build) (a b dl G L : ℚ) (hS : Scale G L)
    (p pad : ℕ) (hp : 1 ≤ p) (hp46 : p ≤ 46) (hpw : p + 1 < w) (hpad : pad < w)
    (hb : Rep b) (ha' : |a| ≤ G) (hb' : |b| ≤ G) (hmin : L ≤ b - a)
    (hdl : |dl - span a b p| ≤ span a b p / 2 ^ 50) (x : ℚ) (h1 : a ≤ x) (h2 : x ≤ b)
    (n : ℤ) (hn : (|(n : ℚ)| + 1) * 2 ^ pad + 2 ^ w / 2 ^ 49 < 2 ^ (w - p - 1)) :
    ∃ (c : BitVec w) (y : ℚ),
      FloatEncoder.encode w m ⟨.fin a, .fin dl, p, pad, false⟩ (.fin x) = some c ∧
      FloatEncoder.decode m ⟨.fin a, .fin dl, p, pad, false⟩ (c + BitVec.ofInt w n) =
        some (.fin y) ∧
      |y - x| ≤ span a b p * ((|(n : ℚ)| + 1) * 2 ^ pad / 2 ^ w) + (|a| + |b|) / 2 ^ 45 := by
  obtain ⟨E, s, t, henc, hs0, hs1, hsT, hts, hE⟩ :=
    encode_core w hw m a b dl G L hS p pad hp hp46 hpw hb ha' hb' hmin hdl x h1 h2
  obtain ⟨c, tmp, hc, htmp, hle, hlt⟩ := pad_toNat m pad hpad E
  have hrem := removePadding_add m pad hpad c n
  have hW : (0 : ℚ) < 2 ^ w := by positivity
  have hPad : (0 : ℚ) < 2 ^ pad := by positivity
  -- the integer without its low bits
  have htmpc : (tmp.toNat : ℤ) = c.toNat * 2 ^ pad := by
    have h3 := removePadding_add m pad hpad c 0
    rw [show BitVec.ofInt w 0 = 0#w from BitVec.ofInt_ofNat w 0, BitVec.add_zero, htmp, add_zero] at h3
    have h4 : tmp = BitVec.ofInt w ((c.toNat : ℤ) * 2 ^ pad) := Option.some.inj h3
    have hcs : c.toNat * 2 ^ pad < 2 ^ w := by
      have h5 : c.toNat * 2 ^ pad ≤ E.toNat := by
        unfold addPadding at hc
        by_cases h0 : pad > 0
        · rw [if_pos h0, shr_ok m E pad hpad] at hc
          have h6 : E >>> pad = c := Option.some.inj hc
          rw [← h6, BitVec.toNat_ushiftRight, Nat.shiftRight_eq_div_pow]
          exact Nat.div_mul_le_self _ _
        · have h7 : pad = 0 := by omega
          rw [if_neg h0] at hc
          have h6 : E = c := Option.some.inj hc
          rw [h7, pow_zero, mul_one, h6]
      exact lt_of_le_of_lt h5 E.isLt
    rw [h4]
    exact toNat_ofInt_of_bounds w _ (by positivity) (by exact_mod_cast hcs)
  have hB : |((((c.toNat : ℤ) + n) * 2 ^ pad : ℤ) : ℚ) - s * 2 ^ w| ≤
      (|(n : ℚ)| + 1) * 2 ^ pad + 2 ^ w / 2 ^ 49 := by
    have h3 : |(tmp.toNat : ℚ) - s * 2 ^ w| ≤ 2 ^ pad + 2 ^ w / 2 ^ 49 := by
      have h1' : (tmp.toNat : ℚ) ≤ E.toNat := by exact_mod_cast hle
      have h2' : (E.toNat : ℚ) + 1 ≤ tmp.toNat + 2 ^ pad := by exact_mod_cast hlt
      obtain ⟨e1, e2⟩ := abs_le.1 hE
      obtain ⟨t1, t2⟩ := abs_le.1 hts
      have tw1 : (t - s) * 2 ^ w ≤ 1 / 2 ^ 49 * 2 ^ w := mul_le_mul_of_nonneg_right t2 hW.le
      have tw2 : -(1 / 2 ^ 49) * 2 ^ w ≤ (t - s) * 2 ^ w := mul_le_mul_of_nonneg_right t1 hW.le
      have q1 : (t - s) * 2 ^ w = t * 2 ^ w - s * 2 ^ w := by ring
      have q2 : (1 : ℚ) / 2 ^ 49 * 2 ^ w = 2 ^ w / 2 ^ 49 := by ring
      have q3 : -((1 : ℚ) / 2 ^ 49) * 2 ^ w = -(2 ^ w / 2 ^ 49) := by ring
      rw [q1, q2] at tw1
      rw [q1, q3] at tw2
      generalize (2 : ℚ) ^ w / 2 ^ 49 = c' at *
      rw [abs_le]; constructor <;> linarith
    have e : ((((c.toNat : ℤ) + n) * 2 ^ pad : ℤ) : ℚ) - s * 2 ^ w =
        ((tmp.toNat : ℚ) - s * 2 ^ w) + n * 2 ^ pad := by
      have : (tmp.toNat : ℚ) = c.toNat * 2 ^ pad := by exact_mod_cast htmpc
      rw [this]; push_cast; ring
    rw [e]
    refine (abs_add_le _ _).trans ?_
    rw [abs_mul, abs_of_pos hPad]
    have : (|(n : ℚ)| + 1) * 2 ^ pad = |(n : ℚ)| * 2 ^ pad + 2 ^ pad := by ring
    rw [this]
    linarith
  have hnoise := tmp_err_noise (w := w) p hp hpw _ s _ hs0 hs1 hn hB
  have htmpE : ∀ X : ℚ, |X - s * 2 ^ w| ≤ (|(n : ℚ)| + 1) * 2 ^ pad + 2 ^ w / 2 ^ 49 →
      |X / 2 ^ w - s| ≤ (|(n : ℚ)| + 1) * 2 ^ pad / 2 ^ w + 1 / 2 ^ 49 := by
    intro X hX
    have e : X / 2 ^ w - s = (X - s * 2 ^ w) / 2 ^ w := by field_simp
    rw [e, abs_div, abs_of_pos hW, div_le_iff₀ hW]
    refine hX.trans_eq ?_
    field_simp
  have hg0 : (0 : ℚ) ≤ (|(n : ℚ)| + 1) * 2 ^ pad / 2 ^ w := by positivity
  have hg : (|(n : ℚ)| + 1) * 2 ^ pad / 2 ^ w ≤ 1 := by
    rw [div_le_one hW]
    have h3 : (2 : ℚ) ^ (w - p - 1) ≤ 2 ^ w := pow_le_pow_right₀ (by norm_num) (by omega)
    have h4 : (0 : ℚ) ≤ 2 ^ w / 2 ^ 49 := by positivity
    linarith
  obtain ⟨y, hdec, hy⟩ := decode_core w hw m a b dl G L hS p pad hp hpw ha' hb' hmin hdl _ _ hrem
    s _ hs0 (le_one_of_scaled hs1) hg0 hg (htmpE _ hnoise)
  rw [hsT, sub_add_cancel] at hy
  exact ⟨c, y, by rw [henc, hc], hdec, hy⟩

end Verif.Encode
