import Verif.Fft.Blocks
import Mathlib.Analysis.Complex.Basic
/-
Rounding errors of the complex operations, in absolute value.
-/
namespace Verif.Fft
open Verif.Float Verif.Encode

/-- The real number denoted by a float (zero if it is not finite). -/
noncomputable def toReal : F64 → ℝ
  | .fin q => q
  | _ => 0

/-- A finite float. -/
def IsFin : F64 → Prop
  | .fin _ => True
  | _ => False

/-- The complex number denoted by a pair of floats. -/
noncomputable def C64.val (z : C64) : ℂ := ⟨toReal z.re, toReal z.im⟩

/-- Both parts are finite. -/
def C64.Finite (z : C64) : Prop := IsFin z.re ∧ IsFin z.im

/-- Both parts are finite binary64 numbers. -/
def C64.Repr (z : C64) : Prop := ∃ p q : ℚ, z = ⟨.fin p, .fin q⟩ ∧ Rep p ∧ Rep q

theorem C64.Finite.exists {z : C64} (h : z.Finite) : ∃ p q : ℚ, z = ⟨.fin p, .fin q⟩ := by
  obtain ⟨re, im⟩ := z
  obtain ⟨h1, h2⟩ := h
  cases re <;> cases im <;> simp_all [IsFin]

theorem C64.Repr.finite {z : C64} (h : z.Repr) : z.Finite := by
  obtain ⟨p, q, rfl, -, -⟩ := h
  exact ⟨trivial, trivial⟩

/-- An absolute error far below all quantities of interest. -/
@[irreducible] noncomputable def tiny : ℝ := 1 / 2 ^ 1000

/-- The unit roundoff. -/
noncomputable def u53 : ℝ := 1 / 2 ^ 53

/-- The relative error of a complex operation. -/
noncomputable def gam : ℝ := 1 / 2 ^ 49

theorem tiny_pos : 0 < tiny := by unfold tiny; positivity

theorem u53_pos : 0 < u53 := by unfold u53; positivity

theorem u53_le : u53 ≤ 1 / 1000000 := by unfold u53; norm_num

theorem gam_eq : gam = 16 * u53 := by unfold gam u53; norm_num

theorem gam_pos : 0 < gam := by unfold gam; positivity

set_option exponentiation.threshold 3000 in
theorem tiny_eq : (1 : ℝ) / 2 ^ 1075 ≤ tiny / 64 := by
  unfold tiny
  have e : (2 : ℝ) ^ 1075 = 2 ^ 1000 * 2 ^ 75 := by rw [← pow_add]
  rw [e]
  have h1 : (0 : ℝ) < 2 ^ 1000 := by positivity
  generalize (2 : ℝ) ^ 1000 = A at *
  rw [div_div, div_le_div_iff₀ (by positivity) (by positivity)]
  nlinarith [show (64 : ℝ) ≤ 2 ^ 75 by norm_num]

/-- One rounding. -/
theorem rnd_real (q : ℚ) : |((rnd q : ℚ) : ℝ) - q| ≤ u53 * |(q : ℝ)| + tiny / 64 := by
  have h := abs_rnd_sub_le q
  have h' : |((rnd q : ℚ) : ℝ) - (q : ℝ)| ≤ |(q : ℝ)| / 2 ^ 53 + 1 / 2 ^ 1075 := by
    have h2 : ((|rnd q - q| : ℚ) : ℝ) ≤ ((|q| / 2 ^ 53 + 1 / 2 ^ 1075 : ℚ) : ℝ) := Rat.cast_le.mpr h
    simpa only [Rat.cast_abs, Rat.cast_sub, Rat.cast_add, Rat.cast_div, Rat.cast_pow, Rat.cast_one,
      Rat.cast_ofNat] using h2
  have := tiny_eq
  unfold u53
  generalize (1 : ℝ) / 2 ^ 1075 = A at *
  generalize tiny / 64 = B at *
  have e : |(q : ℝ)| / 2 ^ 53 = 1 / 2 ^ 53 * |(q : ℝ)| := by ring
  linarith

theorem real_1022 {q : ℚ} (h : |(q : ℝ)| ≤ 2 ^ 900) : |q| ≤ 2 ^ 1022 := by
  have h1 : |q| ≤ 2 ^ 900 := by exact_mod_cast h
  exact h1.trans (pow_le_1022 900 (by norm_num))

theorem ofRat_real {q : ℚ} (h : |(q : ℝ)| ≤ 2 ^ 900) : ofRat q = .fin (rnd q) := ofRat_fin q (real_1022 h)

/-- Bounds used for the absence of overflow: `Lim a k` is `|a| ≤ 2^k` for the exponents in use. -/
theorem pow_double (k : ℕ) : (2 : ℝ) ^ k + 2 ^ k = 2 ^ (k + 1) := by rw [pow_succ]; ring

set_option exponentiation.threshold 3000 in
theorem pow_mono {a b : ℕ} (h : a ≤ b) : (2 : ℝ) ^ a ≤ 2 ^ b := pow_le_pow_right₀ (by norm_num) h

theorem rnd_abs {q : ℚ} {B : ℝ} (h : |(q : ℝ)| ≤ B) (hB : 1 ≤ B) : |((rnd q : ℚ) : ℝ)| ≤ 2 * B := by
  have h1 := rnd_real q
  have h2 : |((rnd q : ℚ) : ℝ)| ≤ |((rnd q : ℚ) : ℝ) - q| + |(q : ℝ)| := by
    have := abs_add_le (((rnd q : ℚ) : ℝ) - q) q
    simpa using this
  have h3 : tiny / 64 ≤ 1 / 4 := by
    have : tiny ≤ 1 := by
      unfold tiny
      rw [div_le_one (by positivity)]
      exact one_le_pow₀ (by norm_num)
    linarith
  have h4 := u53_le
  have h5 := u53_pos
  have h6 : u53 * |(q : ℝ)| ≤ 1 / 4 * B :=
    mul_le_mul (by linarith) h (abs_nonneg _) (by norm_num)
  linarith

/-! ### Two products and a sum -/

/-- The real analysis: `r` approximates `p + q` after roundings of `p`, `q` and of the sum. -/
theorem two_sum (p q p' q' r : ℝ) (ε η : ℝ) (hε0 : 0 ≤ ε) (hε1 : ε ≤ 1 / 1000000) (hη : 0 ≤ η)
    (hp : |p' - p| ≤ ε * |p| + η) (hq : |q' - q| ≤ ε * |q| + η)
    (hr : |r - (p' + q')| ≤ ε * |p' + q'| + η) : |r - (p + q)| ≤ 3 * ε * (|p| + |q|) + 4 * η := by
  have h1 : |p' + q'| ≤ (1 + ε) * (|p| + |q|) + 2 * η := by
    have e : p' + q' = (p' - p) + (q' - q) + (p + q) := by ring
    rw [e]
    refine (abs_add_le _ _).trans ?_
    have := abs_add_le (p' - p) (q' - q)
    have := abs_add_le p q
    nlinarith
  have h2 : |r - (p + q)| ≤ |r - (p' + q')| + |p' - p| + |q' - q| := by
    have e : r - (p + q) = (r - (p' + q')) + (p' - p) + (q' - q) := by ring
    rw [e]
    refine (abs_add_le _ _).trans ?_
    have := abs_add_le (r - (p' + q')) (p' - p)
    linarith
  have hs : 0 ≤ |p| + |q| := by positivity
  have h3 : ε * |p' + q'| ≤ ε * ((1 + ε) * (|p| + |q|) + 2 * η) := mul_le_mul_of_nonneg_left h1 hε0
  have h4 : ε * ε * (|p| + |q|) ≤ 1 / 1000000 * ε * (|p| + |q|) :=
    mul_le_mul_of_nonneg_right (mul_le_mul_of_nonneg_right hε1 hε0) hs
  have h5 : ε * η ≤ 1 / 1000000 * η := mul_le_mul_of_nonneg_right hε1 hη
  have h6 : 0 ≤ ε * (|p| + |q|) := mul_nonneg hε0 hs
  nlinarith

/-- `rnd (rnd p + rnd q)`, and the fused variant where `p` is exact. -/
theorem sum2 (p q : ℚ) (hp : |(p : ℝ)| ≤ 2 ^ 850) (hq : |(q : ℝ)| ≤ 2 ^ 850) (fused : Bool) :
    ∃ s : ℚ, s = (if fused then p else rnd p) + rnd q ∧ ofRat s = .fin (rnd s) ∧ ofRat p = .fin (rnd p) ∧
      ofRat q = .fin (rnd q) ∧
      |((rnd s : ℚ) : ℝ) - (p + q)| ≤ 3 * u53 * (|(p : ℝ)| + |(q : ℝ)|) + tiny / 16 := by
  have h1 : (1 : ℝ) ≤ 2 ^ 850 := one_le_pow₀ (by norm_num)
  have hp' := rnd_abs hp h1
  have hq' := rnd_abs hq h1
  have h850 : (2 : ℝ) ^ 850 ≤ 2 ^ 900 := pow_mono (by norm_num)
  have h851 : (2 : ℝ) * 2 ^ 850 + 2 * 2 ^ 850 ≤ 2 ^ 900 := by
    have e1 := pow_double 850
    have e2 := pow_double 851
    have e3 : (2 : ℝ) ^ 852 ≤ 2 ^ 900 := pow_mono (by norm_num)
    norm_num only at e1 e2
    generalize (2 : ℝ) ^ 850 = A at *
    generalize (2 : ℝ) ^ 851 = B at *
    generalize (2 : ℝ) ^ 852 = C at *
    generalize (2 : ℝ) ^ 900 = D at *
    linarith
  refine ⟨(if fused then p else rnd p) + rnd q, rfl, ?_, ofRat_real (hp.trans h850),
    ofRat_real (hq.trans h850), ?_⟩
  · apply ofRat_real
    push_cast
    refine (abs_add_le _ _).trans ?_
    have : |(((if fused then p else rnd p : ℚ)) : ℝ)| ≤ 2 * 2 ^ 850 := by
      split
      · generalize (2 : ℝ) ^ 850 = A at *; linarith
      · exact hp'
    exact le_trans (add_le_add this hq') h851
  · have hr := rnd_real ((if fused then p else rnd p) + rnd q)
    push_cast at hr
    have hpp : |(((if fused then p else rnd p : ℚ)) : ℝ) - p| ≤ u53 * |(p : ℝ)| + tiny / 64 := by
      split
      · rw [sub_self, abs_zero]
        exact add_nonneg (mul_nonneg u53_pos.le (abs_nonneg _)) (div_nonneg tiny_pos.le (by norm_num))
      · exact rnd_real p
    have := two_sum p q _ _ _ u53 (tiny / 64) u53_pos.le u53_le (by have := tiny_pos; positivity) hpp
      (rnd_real q) hr
    refine this.trans ?_
    linarith

theorem prod_bound (A B : ℂ) (K : ℝ) (hA : ‖A‖ ≤ K) (hB : ‖B‖ ≤ K) (hK : 0 ≤ K) :
    |A.re * B.re| ≤ K * K ∧ |A.im * B.im| ≤ K * K ∧ |A.re * B.im| ≤ K * K ∧ |A.im * B.re| ≤ K * K := by
  have a1 := (Complex.abs_re_le_norm A).trans hA
  have a2 := (Complex.abs_im_le_norm A).trans hA
  have b1 := (Complex.abs_re_le_norm B).trans hB
  have b2 := (Complex.abs_im_le_norm B).trans hB
  simp only [abs_mul]
  exact ⟨mul_le_mul a1 b1 (abs_nonneg _) hK, mul_le_mul a2 b2 (abs_nonneg _) hK,
    mul_le_mul a1 b2 (abs_nonneg _) hK, mul_le_mul a2 b1 (abs_nonneg _) hK⟩

theorem cs2 (A B : ℂ) : |A.re * B.re| + |A.im * B.im| ≤ ‖A‖ * ‖B‖ ∧
    |A.re * B.im| + |A.im * B.re| ≤ ‖A‖ * ‖B‖ := by
  have hA : ‖A‖ ^ 2 = A.re ^ 2 + A.im ^ 2 := by rw [Complex.sq_norm, Complex.normSq_apply]; ring
  have hB : ‖B‖ ^ 2 = B.re ^ 2 + B.im ^ 2 := by rw [Complex.sq_norm, Complex.normSq_apply]; ring
  have key : ∀ a b c d : ℝ, a ^ 2 + b ^ 2 = ‖A‖ ^ 2 → c ^ 2 + d ^ 2 = ‖B‖ ^ 2 → |a * c| + |b * d| ≤ ‖A‖ * ‖B‖ := by
    intro a b c d h1 h2
    apply abs_le_of_sq_le_sq' _ (by positivity) |>.2
    rw [mul_pow, ← h1, ← h2, abs_mul, abs_mul]
    have ea := sq_abs a
    have eb := sq_abs b
    have ec := sq_abs c
    have ed := sq_abs d
    nlinarith [sq_nonneg (|a| * |d| - |b| * |c|)]
  exact ⟨key _ _ _ _ hA.symm hB.symm, key _ _ _ _ hA.symm (by rw [hB]; ring)⟩

theorem norm_le_parts (Z : ℂ) (a b : ℝ) (h1 : |Z.re| ≤ a) (h2 : |Z.im| ≤ b) : ‖Z‖ ≤ a + b :=
  (Complex.norm_le_abs_re_add_abs_im Z).trans (add_le_add h1 h2)

theorem K2 : (2 : ℝ) ^ 400 * 2 ^ 400 ≤ 2 ^ 850 := by rw [← pow_add]; exact pow_mono (by norm_num)

theorem neg_fin (q : ℚ) : (F64.fin q).neg = .fin (-q) := rfl
theorem fma_fin (a b c : ℚ) : F64.fma (.fin a) (.fin b) (.fin c) = ofRat (a * b + c) := rfl
theorem fadd_fin (a b : ℚ) : (F64.fin a).add (.fin b) = ofRat (a + b) := rfl
theorem fmul_fin (a b : ℚ) : (F64.fin a).mul (.fin b) = ofRat (a * b) := rfl
theorem fsub_fin (a b : ℚ) : (F64.fin a).sub (.fin b) = ofRat (a + -b) := rfl

/-- What is known of a computed complex number. -/
def Close (z : C64) (Z : ℂ) (e : ℝ) : Prop := z.Repr ∧ ‖z.val - Z‖ ≤ e

/-- Common form of the two complex products: the two roundings of each part. -/
theorem product_err (a b : C64) (p q r s : ℚ) (ha : a = ⟨.fin p, .fin q⟩) (hb : b = ⟨.fin r, .fin s⟩)
    (hA : ‖a.val‖ ≤ 2 ^ 400) (hB : ‖b.val‖ ≤ 2 ^ 400) (fused : Bool) (z : C64)
    (hz : ∀ t1 t2 : ℚ, t1 = (if fused then p * r else rnd (p * r)) + rnd (-(q * s)) →
      t2 = (if fused then p * s else rnd (p * s)) + rnd (q * r) →
      ofRat t1 = .fin (rnd t1) → ofRat t2 = .fin (rnd t2) →
      ofRat (p * r) = .fin (rnd (p * r)) → ofRat (q * s) = .fin (rnd (q * s)) →
      ofRat (p * s) = .fin (rnd (p * s)) → ofRat (q * r) = .fin (rnd (q * r)) →
      z = ⟨.fin (rnd t1), .fin (rnd t2)⟩) :
    Close z (a.val * b.val) (6 * u53 * (‖a.val‖ * ‖b.val‖) + tiny / 8) := by
  have va : a.val = ⟨p, q⟩ := by rw [ha]; rfl
  have vb : b.val = ⟨r, s⟩ := by rw [hb]; rfl
  obtain ⟨c1, c2⟩ := cs2 a.val b.val
  obtain ⟨b1, b2, b3, b4⟩ := prod_bound a.val b.val (2 ^ 400) hA hB (by positivity)
  have hK := K2
  generalize hNA : ‖a.val‖ = NA at *
  generalize hNB : ‖b.val‖ = NB at *
  rw [va, vb] at *
  simp only at c1 c2 b1 b2 b3 b4
  obtain ⟨t1, ht1, f1, f2, f3, e1⟩ := sum2 (p * r) (-(q * s)) (by push_cast; exact b1.trans hK)
    (by push_cast; rw [abs_neg]; exact b2.trans hK) fused
  obtain ⟨t2, ht2, g1, g2, g3, e2⟩ := sum2 (p * s) (q * r) (by push_cast; exact b3.trans hK)
    (by push_cast; exact b4.trans hK) fused
  have hq' : ofRat (q * s) = .fin (rnd (q * s)) := by
    apply ofRat_real
    push_cast
    exact (b2.trans hK).trans (pow_mono (by norm_num))
  have := hz t1 t2 ht1 ht2 f1 g1 f2 hq' g2 g3
  subst this
  refine ⟨⟨_, _, rfl, rep_rnd _, rep_rnd _⟩, ?_⟩
  have n1 : 3 * u53 * (|((p * r : ℚ) : ℝ)| + |((-(q * s) : ℚ) : ℝ)|) ≤ 3 * u53 * (NA * NB) := by
    apply mul_le_mul_of_nonneg_left _ (by have := u53_pos; positivity)
    push_cast; rw [abs_neg]; exact c1
  have n2 : 3 * u53 * (|((p * s : ℚ) : ℝ)| + |((q * r : ℚ) : ℝ)|) ≤ 3 * u53 * (NA * NB) := by
    apply mul_le_mul_of_nonneg_left _ (by have := u53_pos; positivity)
    push_cast; exact c2
  refine (norm_le_parts _ (3 * u53 * (NA * NB) + tiny / 16) (3 * u53 * (NA * NB) + tiny / 16) ?_ ?_).trans
    (by linarith)
  · show |((rnd t1 : ℚ) : ℝ) - ((p : ℝ) * r - q * s)| ≤ _
    rw [sub_eq_add_neg ((p : ℝ) * r)]
    push_cast at e1 n1
    linarith
  · show |((rnd t2 : ℚ) : ℝ) - ((p : ℝ) * s + q * r)| ≤ _
    push_cast at e2 n2
    linarith

theorem Close.mono {z : C64} {Z : ℂ} {e e' : ℝ} (h : Close z Z e) (he : e ≤ e') : Close z Z e' :=
  ⟨h.1, h.2.trans he⟩

theorem six_le_gam {x : ℝ} (hx : 0 ≤ x) : 6 * u53 * x + tiny / 8 ≤ gam * x + tiny := by
  rw [gam_eq]
  have := tiny_pos
  have := mul_nonneg u53_pos.le hx
  nlinarith

/-- The scalar product of complex numbers. -/
theorem mul_err (a b : C64) (ha : a.Finite) (hb : b.Finite) (hA : ‖a.val‖ ≤ 2 ^ 400) (hB : ‖b.val‖ ≤ 2 ^ 400) :
    Close (a.mul b) (a.val * b.val) (6 * u53 * (‖a.val‖ * ‖b.val‖) + tiny / 8) := by
  obtain ⟨p, q, ha⟩ := ha.exists
  obtain ⟨r, s, hb⟩ := hb.exists
  refine product_err a b p q r s ha hb hA hB false _ ?_
  intro t1 t2 h1 h2 o1 o2 o3 o4 o5 o6
  rw [if_neg (by decide)] at h1 h2
  rw [ha, hb]
  unfold C64.mul
  dsimp only
  rw [fmul_fin, fmul_fin, fmul_fin, fmul_fin, o3, o4, o5, o6, fsub_fin, fadd_fin, ← rnd_neg, ← h1, ← h2, o1, o2]

/-- The fused product of complex numbers. -/
theorem mulFused_err (a b : C64) (ha : a.Finite) (hb : b.Finite) (hA : ‖a.val‖ ≤ 2 ^ 400) (hB : ‖b.val‖ ≤ 2 ^ 400) :
    Close (mulFused a.re a.im b) (a.val * b.val) (6 * u53 * (‖a.val‖ * ‖b.val‖) + tiny / 8) := by
  obtain ⟨p, q, ha⟩ := ha.exists
  obtain ⟨r, s, hb⟩ := hb.exists
  refine product_err a b p q r s ha hb hA hB true _ ?_
  intro t1 t2 h1 h2 o1 o2 o3 o4 o5 o6
  rw [if_pos rfl] at h1 h2
  rw [ha, hb]
  unfold mulFused
  dsimp only
  rw [fmul_fin, fmul_fin, o4, o6, neg_fin, fma_fin, fma_fin, ← rnd_neg, ← h1, ← h2, o1, o2]

theorem val_fin (p q : ℚ) : (C64.mk (.fin p) (.fin q)).val = ⟨(p : ℝ), (q : ℝ)⟩ := rfl

/-- A rounded sum of three terms, the last two already summed with an error. -/
theorem three_sum (x y o s r : ℝ) (ε η : ℝ) (hε0 : 0 ≤ ε) (hε1 : ε ≤ 1 / 1000000) (hη : 0 ≤ η)
    (hs : |s - (x + y)| ≤ 3 * ε * (|x| + |y|) + 4 * η)
    (hr : |r - (o + s)| ≤ ε * |o + s| + η) : |r - (o + (x + y))| ≤ 5 * ε * (|o| + |x| + |y|) + 6 * η := by
  have h1 : |o + s| ≤ |o| + (|x| + |y|) + (3 * ε * (|x| + |y|) + 4 * η) := by
    have e : o + s = o + (x + y) + (s - (x + y)) := by ring
    rw [e]
    refine (abs_add_le _ _).trans ?_
    have := abs_add_le o (x + y)
    have := abs_add_le x y
    linarith
  have h2 : |r - (o + (x + y))| ≤ |r - (o + s)| + |s - (x + y)| := by
    have e : r - (o + (x + y)) = (r - (o + s)) + (s - (x + y)) := by ring
    rw [e]
    exact abs_add_le _ _
  have h3 : ε * |o + s| ≤ ε * (|o| + (|x| + |y|) + (3 * ε * (|x| + |y|) + 4 * η)) := mul_le_mul_of_nonneg_left h1 hε0
  have hx : 0 ≤ |x| + |y| := by positivity
  have h4 : ε * ε * (|x| + |y|) ≤ 1 / 1000000 * ε * (|x| + |y|) :=
    mul_le_mul_of_nonneg_right (mul_le_mul_of_nonneg_right hε1 hε0) hx
  have h5 : ε * η ≤ 1 / 1000000 * η := mul_le_mul_of_nonneg_right hε1 hη
  have h6 : 0 ≤ ε * (|x| + |y|) := mul_nonneg hε0 hx
  have h7 : 0 ≤ ε * |o| := mul_nonneg hε0 (abs_nonneg _)
  nlinarith

/-- A rounded sum of three terms, two of them already summed with one rounding. -/
theorem three_sum' (x y o s r : ℝ) (ε η : ℝ) (hε0 : 0 ≤ ε) (hε1 : ε ≤ 1 / 1000000) (hη : 0 ≤ η)
    (hs : |s - (y + o)| ≤ ε * |y + o| + η)
    (hr : |r - (x + s)| ≤ ε * |x + s| + η) : |r - (o + (x + y))| ≤ 5 * ε * (|o| + |x| + |y|) + 6 * η := by
  have h0 : |y + o| ≤ |y| + |o| := abs_add_le _ _
  have h1 : |x + s| ≤ |x| + (|y| + |o|) + (ε * (|y| + |o|) + η) := by
    have e : x + s = x + (y + o) + (s - (y + o)) := by ring
    rw [e]
    refine (abs_add_le _ _).trans ?_
    have := abs_add_le x (y + o)
    have := mul_le_mul_of_nonneg_left h0 hε0
    linarith
  have h2 : |r - (o + (x + y))| ≤ |r - (x + s)| + |s - (y + o)| := by
    have e : r - (o + (x + y)) = (r - (x + s)) + (s - (y + o)) := by ring
    rw [e]
    exact abs_add_le _ _
  have h3 : ε * |x + s| ≤ ε * (|x| + (|y| + |o|) + (ε * (|y| + |o|) + η)) := mul_le_mul_of_nonneg_left h1 hε0
  have hx : 0 ≤ |y| + |o| := by positivity
  have h4 : ε * ε * (|y| + |o|) ≤ 1 / 1000000 * ε * (|y| + |o|) :=
    mul_le_mul_of_nonneg_right (mul_le_mul_of_nonneg_right hε1 hε0) hx
  have h5 : ε * η ≤ 1 / 1000000 * η := mul_le_mul_of_nonneg_right hε1 hη
  have h6 : 0 ≤ ε * (|y| + |o|) := mul_nonneg hε0 hx
  have h7 : 0 ≤ ε * |x| := mul_nonneg hε0 (abs_nonneg _)
  have h8 := mul_le_mul_of_nonneg_left h0 hε0
  nlinarith

theorem parts_le (O : ℂ) (K : ℝ) (h : ‖O‖ ≤ K) : |O.re| ≤ K ∧ |O.im| ≤ K :=
  ⟨(Complex.abs_re_le_norm O).trans h, (Complex.abs_im_le_norm O).trans h⟩

/-- The sum of the errors of both parts. -/
theorem parts_sum (O A B : ℂ) (z : C64) (p q : ℚ) (hz : z = ⟨.fin p, .fin q⟩) (hp : Rep p) (hq : Rep q)
    (h1 : |(p : ℝ) - (O.re + (A.re * B.re + -(A.im * B.im)))| ≤
      5 * u53 * (|O.re| + |A.re * B.re| + |-(A.im * B.im)|) + 6 * (tiny / 64))
    (h2 : |(q : ℝ) - (O.im + (A.re * B.im + A.im * B.re))| ≤
      5 * u53 * (|O.im| + |A.re * B.im| + |A.im * B.re|) + 6 * (tiny / 64)) :
    Close z (O + A * B) (gam * (‖O‖ + ‖A‖ * ‖B‖) + tiny) := by
  subst hz
  refine ⟨⟨p, q, rfl, hp, hq⟩, ?_⟩
  obtain ⟨c1, c2⟩ := cs2 A B
  obtain ⟨o1, o2⟩ := parts_le O ‖O‖ le_rfl
  rw [abs_neg] at h1
  have hu := u53_pos
  have ht := tiny_pos
  refine (norm_le_parts _ (5 * u53 * (‖O‖ + ‖A‖ * ‖B‖) + 6 * (tiny / 64))
    (5 * u53 * (‖O‖ + ‖A‖ * ‖B‖) + 6 * (tiny / 64)) ?_ ?_).trans ?_
  · rw [val_fin]
    simp only [Complex.sub_re, Complex.add_re, Complex.mul_re]
    rw [sub_eq_add_neg (A.re * B.re)]
    refine h1.trans ?_
    have := mul_le_mul_of_nonneg_left (show |O.re| + |A.re * B.re| + |A.im * B.im| ≤ ‖O‖ + ‖A‖ * ‖B‖ by linarith)
      (show 0 ≤ 5 * u53 by positivity)
    linarith
  · rw [val_fin]
    simp only [Complex.sub_im, Complex.add_im, Complex.mul_im]
    refine h2.trans ?_
    have := mul_le_mul_of_nonneg_left (show |O.im| + |A.re * B.im| + |A.im * B.re| ≤ ‖O‖ + ‖A‖ * ‖B‖ by linarith)
      (show 0 ≤ 5 * u53 by positivity)
    linarith
  · rw [gam_eq]
    have : 0 ≤ u53 * (‖O‖ + ‖A‖ * ‖B‖) := by positivity
    linarith

theorem four_850 : (4 : ℝ) * 2 ^ 850 + 2 ^ 850 ≤ 2 ^ 900 := by
  have e : (2 : ℝ) ^ 853 ≤ 2 ^ 900 := pow_mono (by norm_num)
  have e1 : (2 : ℝ) ^ 853 = 2 ^ 850 * 2 ^ 3 := by rw [← pow_add]
  have : (0 : ℝ) < 2 ^ 850 := by positivity
  generalize (2 : ℝ) ^ 850 = A at *
  generalize (2 : ℝ) ^ 853 = B at *
  generalize (2 : ℝ) ^ 900 = C at *
  nlinarith

/-- The scalar multiply-add. -/
theorem addMul_err (o a b : C64) (ho : o.Finite) (ha : a.Finite) (hb : b.Finite) (hO : ‖o.val‖ ≤ 2 ^ 850)
    (hA : ‖a.val‖ ≤ 2 ^ 400) (hB : ‖b.val‖ ≤ 2 ^ 400) :
    Close (o.add (a.mul b)) (o.val + a.val * b.val) (gam * (‖o.val‖ + ‖a.val‖ * ‖b.val‖) + tiny) := by
  obtain ⟨x, y, ho⟩ := ho.exists
  obtain ⟨p, q, ha⟩ := ha.exists
  obtain ⟨r, s, hb⟩ := hb.exists
  subst ho ha hb
  obtain ⟨b1, b2, b3, b4⟩ := prod_bound _ _ (2 ^ 400) hA hB (by positivity)
  obtain ⟨o1, o2⟩ := parts_le _ _ hO
  have hK := K2
  simp only [val_fin] at b1 b2 b3 b4 o1 o2
  obtain ⟨t1, ht1, f1, f2, f3, e1⟩ := sum2 (p * r) (-(q * s)) (by push_cast; exact b1.trans hK)
    (by push_cast; rw [abs_neg]; exact b2.trans hK) false
  obtain ⟨t2, ht2, g1, g2, g3, e2⟩ := sum2 (p * s) (q * r) (by push_cast; exact b3.trans hK)
    (by push_cast; exact b4.trans hK) false
  have hq' : ofRat (q * s) = .fin (rnd (q * s)) := by
    apply ofRat_real
    push_cast
    exact (b2.trans hK).trans (pow_mono (by norm_num))
  rw [if_neg (by decide)] at ht1 ht2
  have h1 : (1 : ℝ) ≤ 2 ^ 850 := one_le_pow₀ (by norm_num)
  have hsz : ∀ (t u v : ℚ) , t = rnd u + rnd v → |(u : ℝ)| ≤ 2 ^ 850 → |(v : ℝ)| ≤ 2 ^ 850 →
      |((rnd t : ℚ) : ℝ) - (u + v)| ≤ 3 * u53 * (|(u : ℝ)| + |(v : ℝ)|) + tiny / 16 →
      |((rnd t : ℚ) : ℝ)| ≤ 4 * 2 ^ 850 := by
    intro t u v _ hu hv h
    have e := abs_add_le (((rnd t : ℚ) : ℝ) - (u + v)) (u + v)
    rw [sub_add_cancel] at e
    have e' := abs_add_le (u : ℝ) v
    have h3 : tiny / 16 ≤ 1 := by
      have : tiny ≤ 1 := by
        unfold tiny
        rw [div_le_one (by positivity)]
        exact one_le_pow₀ (by norm_num)
      linarith
    have := u53_le
    have := u53_pos
    have h4 : 3 * u53 * (|(u : ℝ)| + |(v : ℝ)|) ≤ 3 * (1 / 1000000) * (|(u : ℝ)| + |(v : ℝ)|) :=
      mul_le_mul_of_nonneg_right (by linarith) (by positivity)
    clear hA hB hK b1 b2 b3 b4
    generalize (2 : ℝ) ^ 850 = A at *
    linarith
  have s1 := hsz t1 _ _ ht1 (by push_cast; exact b1.trans hK) (by push_cast; rw [abs_neg]; exact b2.trans hK) e1
  have s2 := hsz t2 _ _ ht2 (by push_cast; exact b3.trans hK) (by push_cast; exact b4.trans hK) e2
  have h900 := four_850
  have k1 : ofRat (x + rnd t1) = .fin (rnd (x + rnd t1)) := by
    apply ofRat_real
    push_cast
    refine (abs_add_le _ _).trans ?_
    refine le_trans ?_ h900
    rw [add_comm]
    exact add_le_add s1 o1
  have k2 : ofRat (y + rnd t2) = .fin (rnd (y + rnd t2)) := by
    apply ofRat_real
    push_cast
    refine (abs_add_le _ _).trans ?_
    refine le_trans ?_ h900
    rw [add_comm]
    exact add_le_add s2 o2
  have tp := tiny_pos
  refine parts_sum _ _ _ _ (rnd (x + rnd t1)) (rnd (y + rnd t2)) ?_ (rep_rnd _) (rep_rnd _) ?_ ?_
  · unfold C64.add C64.mul
    dsimp only
    rw [fmul_fin, fmul_fin, fmul_fin, fmul_fin, f2, hq', g2, g3, fsub_fin, fadd_fin, ← rnd_neg, ← ht1, ← ht2, f1, g1,
      fadd_fin, fadd_fin, k1, k2]
  · simp only [val_fin]
    have hr := rnd_real (x + rnd t1)
    push_cast at hr e1
    exact three_sum _ _ _ _ _ u53 (tiny / 64) u53_pos.le u53_le (by linarith)
      (e1.trans (by linarith)) hr
  · simp only [val_fin]
    have hr := rnd_real (y + rnd t2)
    push_cast at hr e2
    exact three_sum _ _ _ _ _ u53 (tiny / 64) u53_pos.le u53_le (by linarith)
      (e2.trans (by linarith)) hr

/-- The fused multiply-add. -/
theorem mulAddFused_err (o a b : C64) (ho : o.Finite) (ha : a.Finite) (hb : b.Finite) (hO : ‖o.val‖ ≤ 2 ^ 850)
    (hA : ‖a.val‖ ≤ 2 ^ 400) (hB : ‖b.val‖ ≤ 2 ^ 400) :
    Close (mulAddFused o a b) (o.val + a.val * b.val) (gam * (‖o.val‖ + ‖a.val‖ * ‖b.val‖) + tiny) := by
  obtain ⟨x, y, ho⟩ := ho.exists
  obtain ⟨p, q, ha⟩ := ha.exists
  obtain ⟨r, s, hb⟩ := hb.exists
  subst ho ha hb
  obtain ⟨b1, b2, b3, b4⟩ := prod_bound _ _ (2 ^ 400) hA hB (by positivity)
  obtain ⟨o1, o2⟩ := parts_le _ _ hO
  have hK := K2
  simp only [val_fin] at b1 b2 b3 b4 o1 o2
  have h1 : (1 : ℝ) ≤ 2 * 2 ^ 850 := by
    have : (1 : ℝ) ≤ 2 ^ 850 := one_le_pow₀ (by norm_num)
    clear hA hB hK b1 b2 b3 b4
    generalize (2 : ℝ) ^ 850 = A at *
    linarith
  have h900 := four_850
  have key : ∀ u v t : ℚ, |(u : ℝ)| ≤ 2 ^ 850 → |(v : ℝ)| ≤ 2 ^ 850 → |(t : ℝ)| ≤ 2 ^ 850 →
      ofRat (v + t) = .fin (rnd (v + t)) ∧ ofRat (u + rnd (v + t)) = .fin (rnd (u + rnd (v + t))) := by
    intro u v t hu hv ht
    have e : |((v + t : ℚ) : ℝ)| ≤ 2 * 2 ^ 850 := by
      push_cast
      refine (abs_add_le _ _).trans ?_
      rw [two_mul]
      exact add_le_add hv ht
    have e2 := rnd_abs e h1
    constructor
    · apply ofRat_real
      have : (0 : ℝ) < 2 ^ 850 := by positivity
      clear hA hB hK b1 b2 b3 b4
      generalize (2 : ℝ) ^ 850 = A at *
      generalize (2 : ℝ) ^ 900 = B at *
      linarith
    · apply ofRat_real
      rw [Rat.cast_add]
      refine (abs_add_le _ _).trans ?_
      clear hA hB hK b1 b2 b3 b4
      generalize (2 : ℝ) ^ 850 = A at *
      generalize (2 : ℝ) ^ 900 = B at *
      linarith
  obtain ⟨k1, k2⟩ := key (p * r) (-(q * s)) x (by push_cast; exact b1.trans hK)
    (by push_cast; rw [abs_neg]; exact b2.trans hK) o1
  obtain ⟨k3, k4⟩ := key (p * s) (q * r) y (by push_cast; exact b3.trans hK) (by push_cast; exact b4.trans hK) o2
  have k1' : ofRat (q * s + -x) = .fin (rnd (q * s + -x)) := by
    obtain ⟨k, -⟩ := key 0 (q * s) (-x) (by simp) (by push_cast; exact b2.trans hK) (by push_cast; rw [abs_neg]; exact o1)
    exact k
  have tp := tiny_pos
  refine parts_sum _ _ _ _ (rnd (p * r + rnd (-(q * s) + x))) (rnd (p * s + rnd (q * r + y))) ?_ (rep_rnd _) (rep_rnd _)
    ?_ ?_
  · unfold mulAddFused
    dsimp only
    rw [neg_fin, fma_fin, fma_fin, k1', k3, neg_fin, ← rnd_neg, show -(q * s + -x) = -(q * s) + x by ring, fma_fin,
      fma_fin, k2, k4]
  · simp only [val_fin]
    have hr := rnd_real (p * r + rnd (-(q * s) + x))
    have hs := rnd_real (-(q * s) + x)
    push_cast at hr hs
    exact three_sum' _ _ _ _ _ u53 (tiny / 64) u53_pos.le u53_le (by linarith) hs hr
  · simp only [val_fin]
    have hr := rnd_real (p * s + rnd (q * r + y))
    have hs := rnd_real (q * r + y)
    push_cast at hr hs
    exact three_sum' _ _ _ _ _ u53 (tiny / 64) u53_pos.le u53_le (by linarith) hs hr

end Verif.Fft
