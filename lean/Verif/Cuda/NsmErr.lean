import Verif.Cuda.NsmFloat
import Verif.Cuda.NsmTwiddle
import Verif.Fft.Error
/-
Rounding errors of the butterflies of the Fourier transform of the GPU.
-/
namespace Verif.Cuda.Nsm
open Verif.Float Verif.Fft

theorem mulAdd_err (f : Fuse) (a b c d : ℚ) (h1 : |((a * b : ℚ) : ℝ)| ≤ 2 ^ 850) (h2 : |((c * d : ℚ) : ℝ)| ≤ 2 ^ 850) :
    ∃ r : ℚ, mulAdd f (.fin a) (.fin b) (.fin c) (.fin d) = .fin r ∧ Rep r ∧
      |(r : ℝ) - (a * b + c * d)| ≤ 3 * u53 * (|(a : ℝ) * b| + |(c : ℝ) * d|) + tiny / 16 := by
  cases f with
  | none =>
    obtain ⟨s, hs, o, o1, o2, e⟩ := sum2 (a * b) (c * d) h1 h2 false
    refine ⟨rnd s, ?_, rep_rnd _, by push_cast at e; exact e⟩
    rw [mulAdd, fmul_fin, fmul_fin, o1, o2, fadd_fin, ← o, hs]; rfl
  | left =>
    obtain ⟨s, hs, o, o1, o2, e⟩ := sum2 (a * b) (c * d) h1 h2 true
    refine ⟨rnd s, ?_, rep_rnd _, by push_cast at e; exact e⟩
    rw [mulAdd, fmul_fin, o2, fma_fin, ← o, hs]; rfl
  | right =>
    obtain ⟨s, hs, o, o1, o2, e⟩ := sum2 (c * d) (a * b) h2 h1 true
    refine ⟨rnd s, ?_, rep_rnd _, ?_⟩
    · rw [mulAdd, fmul_fin, o2, fma_fin, ← o, hs]; rfl
    · push_cast at e
      rw [add_comm ((a : ℝ) * b), add_comm |(a : ℝ) * b|]; exact e

theorem mulSub_err (f : Fuse) (a b c d : ℚ) (h1 : |((a * b : ℚ) : ℝ)| ≤ 2 ^ 850) (h2 : |((c * d : ℚ) : ℝ)| ≤ 2 ^ 850) :
    ∃ r : ℚ, mulSub f (.fin a) (.fin b) (.fin c) (.fin d) = .fin r ∧ Rep r ∧
      |(r : ℝ) - (a * b - c * d)| ≤ 3 * u53 * (|(a : ℝ) * b| + |(c : ℝ) * d|) + tiny / 16 := by
  have h2' : |((-(c * d) : ℚ) : ℝ)| ≤ 2 ^ 850 := by rw [Rat.cast_neg, abs_neg]; exact h2
  have o2 : ofRat (c * d) = .fin (rnd (c * d)) := ofRat_real (h2.trans (pow_mono (by norm_num)))
  cases f with
  | none =>
    obtain ⟨s, hs, o, o1, _, e⟩ := sum2 (a * b) (-(c * d)) h1 h2' false
    refine ⟨rnd s, ?_, rep_rnd _, by push_cast at e; rw [abs_neg] at e; rw [sub_eq_add_neg ((a : ℝ) * b)]; exact e⟩
    rw [mulSub, fmul_fin, fmul_fin, o1, o2, fsub_fin, ← rnd_neg, ← o, hs]; rfl
  | left =>
    obtain ⟨s, hs, o, o1, _, e⟩ := sum2 (a * b) (-(c * d)) h1 h2' true
    refine ⟨rnd s, ?_, rep_rnd _, by push_cast at e; rw [abs_neg] at e; rw [sub_eq_add_neg ((a : ℝ) * b)]; exact e⟩
    rw [mulSub, fmul_fin, o2, neg_fin, fma_fin, ← rnd_neg, ← o, hs]; rfl
  | right =>
    obtain ⟨s, hs, o, _, o1, e⟩ := sum2 (-(c * d)) (a * b) h2' h1 true
    refine ⟨rnd s, ?_, rep_rnd _, ?_⟩
    · rw [mulSub, fmul_fin, o1, neg_fin, fma_fin, ← o, hs, neg_mul]; rfl
    · push_cast at e
      rw [abs_neg] at e
      rw [sub_eq_add_neg ((a : ℝ) * b), add_comm ((a : ℝ) * b), add_comm |(a : ℝ) * b|]; exact e

theorem close_prod (p q r s x y : ℚ) (rx : Rep x) (ry : Rep y)
    (hx : |(x : ℝ) - (p * r - q * s)| ≤ 3 * u53 * (|(p : ℝ) * r| + |(q : ℝ) * s|) + tiny / 16)
    (hy : |(y : ℝ) - (p * s + q * r)| ≤ 3 * u53 * (|(p : ℝ) * s| + |(q : ℝ) * r|) + tiny / 16) :
    Close ⟨.fin x, .fin y⟩ ((⟨p, q⟩ : ℂ) * ⟨r, s⟩) (6 * u53 * (‖(⟨p, q⟩ : ℂ)‖ * ‖(⟨r, s⟩ : ℂ)‖) + tiny / 8) := by
  refine ⟨⟨x, y, rfl, rx, ry⟩, ?_⟩
  obtain ⟨c1, c2⟩ := cs2 (⟨p, q⟩ : ℂ) ⟨r, s⟩
  have hu := u53_pos
  have n1 := mul_le_mul_of_nonneg_left c1 (by linarith : 0 ≤ 3 * u53)
  have n2 := mul_le_mul_of_nonneg_left c2 (by linarith : 0 ≤ 3 * u53)
  dsimp only at n1 n2
  refine (norm_le_parts _ (3 * u53 * (‖(⟨p, q⟩ : ℂ)‖ * ‖(⟨r, s⟩ : ℂ)‖) + tiny / 16)
    (3 * u53 * (‖(⟨p, q⟩ : ℂ)‖ * ‖(⟨r, s⟩ : ℂ)‖) + tiny / 16) ?_ ?_).trans (by linarith)
  · show |(x : ℝ) - ((p : ℝ) * r - q * s)| ≤ _
    linarith
  · show |(y : ℝ) - ((p : ℝ) * s + q * r)| ≤ _
    linarith

/-- A product of complex numbers, with any contractions. -/
theorem prod_err (f g : Fuse) (a b : C64) (ha : a.Finite) (hb : b.Finite) (hA : ‖a.val‖ ≤ 2 ^ 400) (hB : ‖b.val‖ ≤ 2 ^ 400) :
    Close ⟨mulSub f a.re b.re a.im b.im, mulAdd g a.re b.im a.im b.re⟩ (a.val * b.val)
      (6 * u53 * (‖a.val‖ * ‖b.val‖) + tiny / 8) ∧
    Close ⟨mulSub f a.re b.re a.im b.im, mulAdd g a.im b.re a.re b.im⟩ (a.val * b.val)
      (6 * u53 * (‖a.val‖ * ‖b.val‖) + tiny / 8) ∧
    Close ⟨mulAdd f a.re b.re a.im b.im, mulSub g a.im b.re a.re b.im⟩ (a.val * (starRingEnd ℂ) b.val)
      (6 * u53 * (‖a.val‖ * ‖b.val‖) + tiny / 8) := by
  obtain ⟨p, q, rfl⟩ := ha.exists
  obtain ⟨r, s, rfl⟩ := hb.exists
  obtain ⟨b1, b2, b3, b4⟩ := prod_bound _ _ (2 ^ 400) hA hB (by positivity)
  have hK := K2
  simp only [val_fin] at b1 b2 b3 b4
  have k1 : |((p * r : ℚ) : ℝ)| ≤ 2 ^ 850 := by push_cast; exact b1.trans hK
  have k2 : |((q * s : ℚ) : ℝ)| ≤ 2 ^ 850 := by push_cast; exact b2.trans hK
  have k3 : |((p * s : ℚ) : ℝ)| ≤ 2 ^ 850 := by push_cast; exact b3.trans hK
  have k4 : |((q * r : ℚ) : ℝ)| ≤ 2 ^ 850 := by push_cast; exact b4.trans hK
  clear b1 b2 b3 b4 hK hA hB
  obtain ⟨x, ex, rx, hx⟩ := mulSub_err f p r q s k1 k2
  obtain ⟨y, ey, ry, hy⟩ := mulAdd_err g p s q r k3 k4
  obtain ⟨z, ez, rz, hz⟩ := mulAdd_err g q r p s k4 k3
  obtain ⟨x', ex', rx', hx'⟩ := mulAdd_err f p r q s k1 k2
  obtain ⟨z', ez', rz', hz'⟩ := mulSub_err g q r p s k4 k3
  clear k1 k2 k3 k4
  dsimp only
  rw [ex, ey, ez, ex', ez']
  refine ⟨close_prod p q r s x y rx ry hx hy, close_prod p q r s x z rx rz hx ?_, ?_⟩
  · rw [add_comm ((p : ℝ) * s), add_comm |(p : ℝ) * s|]; exact hz
  · have h := close_prod p q r (-s) x' z' rx' rz' ?_ ?_
    · have e : (starRingEnd ℂ) (C64.mk (.fin r) (.fin s)).val = ⟨((r : ℚ) : ℝ), ((-s : ℚ) : ℝ)⟩ := by
        apply Complex.ext <;> simp [val_fin]
      rw [← e, Complex.norm_conj] at h
      exact h
    · push_cast
      rw [mul_neg, sub_neg_eq_add, abs_neg]; exact hx'
    · push_cast
      rw [mul_neg, neg_add_eq_sub, abs_neg, add_comm |(p : ℝ) * s|]; exact hz'

/-- A rounded sum. -/
theorem add_err (a b : ℚ) (h1 : |(a : ℝ)| ≤ 2 ^ 850) (h2 : |(b : ℝ)| ≤ 2 ^ 850) :
    ∃ r : ℚ, (F64.fin a).add (.fin b) = .fin r ∧ Rep r ∧ |(r : ℝ) - (a + b)| ≤ u53 * |(a : ℝ) + b| + tiny / 64 := by
  refine ⟨rnd (a + b), ?_, rep_rnd _, by have := rnd_real (a + b); push_cast at this; exact this⟩
  rw [fadd_fin]
  apply ofRat_real
  push_cast
  refine (abs_add_le _ _).trans ((add_le_add h1 h2).trans ?_)
  rw [pow_double]; exact pow_mono (by norm_num)

theorem cadd_err (a b : C64) (ha : a.Finite) (hb : b.Finite) (hA : ‖a.val‖ ≤ 2 ^ 850) (hB : ‖b.val‖ ≤ 2 ^ 850) :
    Close ⟨a.re.add b.re, a.im.add b.im⟩ (a.val + b.val) (2 * u53 * ‖a.val + b.val‖ + tiny / 32) := by
  obtain ⟨p, q, rfl⟩ := ha.exists
  obtain ⟨r, s, rfl⟩ := hb.exists
  obtain ⟨a1, a2⟩ := parts_le _ _ hA
  obtain ⟨b1, b2⟩ := parts_le _ _ hB
  obtain ⟨x, ex, rx, hx⟩ := add_err p r a1 b1
  obtain ⟨y, ey, ry, hy⟩ := add_err q s a2 b2
  clear a1 a2 b1 b2 hA hB
  dsimp only
  rw [ex, ey]
  refine ⟨⟨x, y, rfl, rx, ry⟩, ?_⟩
  have e : (C64.mk (.fin p) (.fin q)).val + (C64.mk (.fin r) (.fin s)).val = ⟨(p : ℝ) + r, (q : ℝ) + s⟩ := rfl
  rw [e]
  have hu := u53_pos
  obtain ⟨c1, c2⟩ := parts_le (⟨(p : ℝ) + r, (q : ℝ) + s⟩ : ℂ) _ le_rfl
  dsimp only at c1 c2
  generalize ‖(⟨(p : ℝ) + r, (q : ℝ) + s⟩ : ℂ)‖ = N at *
  have n1 := mul_le_mul_of_nonneg_left c1 hu.le
  have n2 := mul_le_mul_of_nonneg_left c2 hu.le
  refine (norm_le_parts _ (u53 * N + tiny / 64) (u53 * N + tiny / 64) ?_ ?_).trans (by linarith)
  · show |(x : ℝ) - (p + r)| ≤ _
    linarith
  · show |(y : ℝ) - (q + s)| ≤ _
    linarith

theorem neg_val (b : C64) (hb : b.Finite) : (C64.mk b.re.neg b.im.neg).Finite ∧ (C64.mk b.re.neg b.im.neg).val = -b.val := by
  obtain ⟨r, s, rfl⟩ := hb.exists
  refine ⟨⟨trivial, trivial⟩, ?_⟩
  simp only [neg_fin, val_fin]
  apply Complex.ext <;> simp

theorem csub_err (a b : C64) (ha : a.Finite) (hb : b.Finite) (hA : ‖a.val‖ ≤ 2 ^ 850) (hB : ‖b.val‖ ≤ 2 ^ 850) :
    Close ⟨a.re.sub b.re, a.im.sub b.im⟩ (a.val - b.val) (2 * u53 * ‖a.val - b.val‖ + tiny / 32) := by
  obtain ⟨h1, h2⟩ := neg_val b hb
  have := cadd_err a _ ha h1 hA (by rw [h2, norm_neg]; exact hB)
  rw [h2, ← sub_eq_add_neg] at this
  exact this

/-- The table in binary64. -/
theorem twiddle_err (h : Nat) (h0 : 0 < h) (h1 : h < 4096) :
    (twiddle h).Finite ∧ ‖(twiddle h).val - rootW h‖ ≤ 6 * u53 ∧ ‖(twiddle h).val‖ ≤ 1.01 := by
  obtain ⟨c, r, i⟩ := table_close h h0 h1
  have hu := u53_pos
  have hu1 := u53_le
  have ht := tiny_le_u
  have ht0 := tiny_pos
  have part : ∀ z : ℤ, |(z : ℝ) / 10 ^ 33| ≤ 1 → ∃ q : ℚ, ofRat ((z : ℚ) / 10 ^ 33) = .fin q ∧
      |(q : ℝ) - (z : ℝ) / 10 ^ 33| ≤ 1.01 * u53 := by
    intro z hz
    refine ⟨_, ofRat_real ?_, ?_⟩
    · push_cast
      exact hz.trans (one_le_pow₀ (by norm_num))
    · have := rnd_real ((z : ℚ) / 10 ^ 33)
      push_cast at this
      have h3 := mul_le_mul_of_nonneg_left hz hu.le
      linarith
  obtain ⟨p, ep, hp⟩ := part _ r
  obtain ⟨q, eq, hq⟩ := part _ i
  have e : twiddle h = ⟨.fin p, .fin q⟩ := by rw [twiddle, ep, eq]
  have hn : ‖(twiddle h).val - litVal h‖ ≤ 2.02 * u53 := by
    rw [e]
    refine (norm_le_parts _ (1.01 * u53) (1.01 * u53) ?_ ?_).trans (by linarith)
    · exact hp
    · exact hq
  have hu2 : (4 : ℝ) / 10 ^ 16 ≤ 3.7 * u53 := by unfold u53; norm_num
  have hd : ‖(twiddle h).val - rootW h‖ ≤ 6 * u53 := by
    have := norm_add_le ((twiddle h).val - litVal h) (litVal h - rootW h)
    rw [sub_add_sub_cancel] at this
    linarith
  refine ⟨by rw [e]; exact ⟨trivial, trivial⟩, hd, ?_⟩
  have := norm_add_le ((twiddle h).val - rootW h) (rootW h)
  rw [sub_add_cancel, rootW_norm] at this
  linarith

/-- What is known of a computed butterfly. -/
def ButterflyOk (F : C64 → C64 → C64 × C64) (E : ℂ → ℂ → ℂ × ℂ) : Prop :=
  ∀ a b : C64, a.Finite → b.Finite → ‖a.val‖ ≤ 2 ^ 300 → ‖b.val‖ ≤ 2 ^ 300 →
    Close (F a b).1 (E a.val b.val).1 (gam * (‖a.val‖ + ‖b.val‖) + tiny) ∧
    Close (F a b).2 (E a.val b.val).2 (gam * (‖a.val‖ + ‖b.val‖) + tiny)

theorem le_850 {x : ℝ} (h : x ≤ 2 ^ 300) : x ≤ 2 ^ 850 := h.trans (pow_mono (by norm_num))
theorem le_400 {x : ℝ} (h : x ≤ 2 ^ 300) : x ≤ 2 ^ 400 := h.trans (pow_mono (by norm_num))

theorem val_close {z : C64} {Z : ℂ} {e : ℝ} (h : Close z Z e) : ‖z.val‖ ≤ ‖Z‖ + e := by
  have := norm_add_le (z.val - Z) Z
  rw [sub_add_cancel] at this
  linarith [h.2]

theorem fwd_ok (ch : Contract) (m tid h n : Nat) (h0 : 0 < h) (h1 : h < 4096) :
    ButterflyOk ((floatOps ch).fwd m tid (twiddle h)) ((cOps n).fwd m tid (rootW h)) := by
  intro a b fa fb ba bb
  obtain ⟨fw, ew, bw⟩ := twiddle_err h h0 h1
  have hu := u53_pos
  have hu1 := u53_le
  have ht := tiny_le_u
  have ht0 := tiny_pos
  have bw4 : ‖(twiddle h).val‖ ≤ 2 ^ 400 := bw.trans ((by norm_num : (1.01 : ℝ) ≤ 2 ^ 1).trans (pow_mono (by norm_num)))
  have hp := (prod_err (ch.fwd m tid 0) (ch.fwd m tid 1) b (twiddle h) fb fw (le_400 bb) bw4).2.1
  rw [cOps_eq]
  show Close ⟨a.re.add _, a.im.add _⟩ (a.val + rootW h * b.val) _ ∧ Close ⟨a.re.sub _, a.im.sub _⟩ (a.val - rootW h * b.val) _
  set v : C64 := ⟨mulSub (ch.fwd m tid 0) b.re (twiddle h).re b.im (twiddle h).im,
    mulAdd (ch.fwd m tid 1) b.im (twiddle h).re b.re (twiddle h).im⟩ with hv
  have hB : 0 ≤ ‖b.val‖ := norm_nonneg _
  have hA : 0 ≤ ‖a.val‖ := norm_nonneg _
  have hvW : ‖v.val - rootW h * b.val‖ ≤ 12.1 * u53 * ‖b.val‖ + tiny / 8 := by
    have h2 := norm_add_le (v.val - b.val * (twiddle h).val) (b.val * ((twiddle h).val - rootW h))
    rw [show v.val - b.val * (twiddle h).val + b.val * ((twiddle h).val - rootW h) = v.val - rootW h * b.val by ring, norm_mul] at h2
    have h3 := mul_le_mul_of_nonneg_left ew hB
    have h4 := mul_le_mul_of_nonneg_left (mul_le_mul_of_nonneg_left bw hB) (by linarith : 0 ≤ 6 * u53)
    have h5 := hp.2
    nlinarith [mul_nonneg hu.le hB]
  have hvn : ‖v.val‖ ≤ 1.01 * ‖b.val‖ + tiny := by
    have h2 := norm_add_le (v.val - rootW h * b.val) (rootW h * b.val)
    rw [sub_add_cancel, norm_mul, rootW_norm, one_mul] at h2
    nlinarith
  have hv850 : ‖v.val‖ ≤ 2 ^ 850 := by
    refine hvn.trans ?_
    have e1 : (2 : ℝ) ^ 300 + 2 ^ 300 = 2 ^ 301 := pow_double 300
    have e2 : (2 : ℝ) ^ 301 ≤ 2 ^ 850 := pow_mono (by norm_num)
    have e3 : (1 : ℝ) ≤ 2 ^ 300 := one_le_pow₀ (by norm_num)
    clear hv bw4
    generalize (2 : ℝ) ^ 300 = P at *
    generalize (2 : ℝ) ^ 301 = Q at *
    generalize (2 : ℝ) ^ 850 = R at *
    linarith
  have fin : ∀ (z : C64) (Y Z : ℂ), ‖Y‖ ≤ ‖a.val‖ + ‖v.val‖ → ‖Y - Z‖ ≤ ‖v.val - rootW h * b.val‖ → Close z Y (2 * u53 * ‖Y‖ + tiny / 32) →
      Close z Z (gam * (‖a.val‖ + ‖b.val‖) + tiny) := by
    intro z Y Z hY hYZ hz
    refine ⟨hz.1, ?_⟩
    have h2 := norm_add_le (z.val - Y) (Y - Z)
    rw [sub_add_sub_cancel] at h2
    have h3 := hz.2
    have h4 := mul_le_mul_of_nonneg_left hY (by linarith : 0 ≤ 2 * u53)
    rw [gam_eq]
    clear ba bb bw4 hv850
    nlinarith [mul_nonneg hu.le hB, mul_nonneg hu.le hA]
  have fv := hp.1.finite
  refine ⟨fin _ _ _ (norm_add_le _ _) ?_ (cadd_err a v fa fv (le_850 ba) hv850),
    fin _ _ _ (norm_sub_le _ _) ?_ (csub_err a v fa fv (le_850 ba) hv850)⟩
  · rw [add_sub_add_left_eq_sub]
  · rw [sub_sub_sub_cancel_left, norm_sub_rev]

theorem inv_ok (ch : Contract) (m tid h n : Nat) (h0 : 0 < h) (h1 : h < 4096) :
    ButterflyOk ((floatOps ch).inv m tid (twiddle h)) ((cOps n).inv m tid (rootW h)) := by
  intro a b fa fb ba bb
  obtain ⟨fw, ew, bw⟩ := twiddle_err h h0 h1
  have hu := u53_pos
  have hu1 := u53_le
  have ht := tiny_le_u
  have ht0 := tiny_pos
  have bw4 : ‖(twiddle h).val‖ ≤ 2 ^ 400 := bw.trans ((by norm_num : (1.01 : ℝ) ≤ 2 ^ 1).trans (pow_mono (by norm_num)))
  rw [cOps_eq]
  have hs := csub_err a b fa fb (le_850 ba) (le_850 bb)
  have hd := cadd_err a b fa fb (le_850 ba) (le_850 bb)
  have hB : 0 ≤ ‖b.val‖ := norm_nonneg _
  have hA : 0 ≤ ‖a.val‖ := norm_nonneg _
  have hsub := norm_sub_le a.val b.val
  have hadd := norm_add_le a.val b.val
  show Close ⟨a.re.add _, a.im.add _⟩ (a.val + b.val) _ ∧
    Close ⟨mulAdd (ch.inv m tid 0) _ _ _ _, mulSub (ch.inv m tid 1) _ _ _ _⟩ ((a.val - b.val) * (starRingEnd ℂ) (rootW h)) _
  set u : C64 := ⟨a.re.sub b.re, a.im.sub b.im⟩ with hudef
  have hun : ‖u.val‖ ≤ 1.01 * (‖a.val‖ + ‖b.val‖) + tiny / 32 := by
    have := val_close hs
    nlinarith [mul_le_mul_of_nonneg_left hsub (by linarith : 0 ≤ 2 * u53)]
  have hu400 : ‖u.val‖ ≤ 2 ^ 400 := by
    refine hun.trans ?_
    have e1 : (2 : ℝ) ^ 300 + 2 ^ 300 = 2 ^ 301 := pow_double 300
    have e4 : (2 : ℝ) ^ 301 + 2 ^ 301 = 2 ^ 302 := pow_double 301
    have e2 : (2 : ℝ) ^ 302 ≤ 2 ^ 400 := pow_mono (by norm_num)
    have e3 : (1 : ℝ) ≤ 2 ^ 300 := one_le_pow₀ (by norm_num)
    clear hudef bw4
    generalize (2 : ℝ) ^ 300 = P at *
    generalize (2 : ℝ) ^ 301 = Q at *
    generalize (2 : ℝ) ^ 302 = Q at *
    generalize (2 : ℝ) ^ 400 = R at *
    linarith
  have hp := (prod_err (ch.inv m tid 0) (ch.inv m tid 1) u (twiddle h) hs.1.finite fw hu400 bw4).2.2
  clear ba bb bw4 hu400
  refine ⟨hd.mono ?_, hp.1, ?_⟩
  · rw [gam_eq]
    nlinarith [mul_le_mul_of_nonneg_left hadd (by linarith : 0 ≤ 2 * u53), mul_nonneg hu.le hB, mul_nonneg hu.le hA]
  · have hc : ‖(starRingEnd ℂ) (twiddle h).val - (starRingEnd ℂ) (rootW h)‖ ≤ 6 * u53 := by
      rw [← map_sub, Complex.norm_conj]; exact ew
    have key := mul_approx (K := ‖a.val‖ + ‖b.val‖) (L := 1.01) hp.2 hs.2 hc hsub (by rw [Complex.norm_conj]; exact bw)
      (by have := norm_nonneg (a.val - b.val); nlinarith)
    refine key.trans ?_
    have h1 : ‖u.val‖ * ‖(twiddle h).val‖ ≤ (1.01 * (‖a.val‖ + ‖b.val‖) + tiny / 32) * 1.01 :=
      mul_le_mul hun bw (norm_nonneg _) (by linarith)
    have h2 := mul_le_mul_of_nonneg_left h1 (by linarith : 0 ≤ 6 * u53)
    have h3 := mul_le_mul_of_nonneg_left hsub (by linarith : 0 ≤ 2 * u53)
    have h4 : u53 * tiny ≤ tiny / 100 := by nlinarith
    rw [gam_eq]
    nlinarith [mul_nonneg hu.le hB, mul_nonneg hu.le hA]

theorem addProd_err (f : Bool) (a x c : ℚ) (h1 : |(a : ℝ)| ≤ 2 ^ 850) (h2 : |((x * c : ℚ) : ℝ)| ≤ 2 ^ 850) :
    ∃ r : ℚ, addProd f (.fin a) (.fin x) (.fin c) = .fin r ∧ Rep r ∧
      |(r : ℝ) - (a + x * c)| ≤ 3 * u53 * (|(a : ℝ)| + |(x : ℝ) * c|) + tiny / 16 := by
  have hu := u53_pos
  have ht := tiny_pos
  obtain ⟨s, hs, o, _, o2, e⟩ := sum2 a (x * c) h1 h2 true
  cases f with
  | false =>
    refine ⟨rnd s, ?_, rep_rnd _, by push_cast at e; exact e⟩
    rw [addProd, if_neg (by decide), fmul_fin, o2, fadd_fin, ← o, hs]; rfl
  | true =>
    refine ⟨rnd (x * c + a), ?_, rep_rnd _, ?_⟩
    · rw [addProd, if_pos rfl, fma_fin]
      apply ofRat_real
      push_cast at h2 ⊢
      refine (abs_add_le _ _).trans ((add_le_add h2 h1).trans ?_)
      rw [pow_double]; exact pow_mono (by norm_num)
    · have h := rnd_real (x * c + a)
      push_cast at h
      have h3 := mul_le_mul_of_nonneg_left (abs_add_le ((x : ℝ) * c) a) hu.le
      have h4 : 0 ≤ u53 * (|(a : ℝ)| + |(x : ℝ) * c|) := by positivity
      rw [add_comm (a : ℝ)]
      linarith

theorem subProd_err (f : Bool) (a x c : ℚ) (h1 : |(a : ℝ)| ≤ 2 ^ 850) (h2 : |((x * c : ℚ) : ℝ)| ≤ 2 ^ 850) :
    ∃ r : ℚ, subProd f (.fin a) (.fin x) (.fin c) = .fin r ∧ Rep r ∧
      |(r : ℝ) - (a - x * c)| ≤ 3 * u53 * (|(a : ℝ)| + |(x : ℝ) * c|) + tiny / 16 := by
  have h2' : |((-x * c : ℚ) : ℝ)| ≤ 2 ^ 850 := by rw [neg_mul, Rat.cast_neg, abs_neg]; exact h2
  have o2 : ofRat (x * c) = .fin (rnd (x * c)) := ofRat_real (h2.trans (pow_mono (by norm_num)))
  obtain ⟨r, e, rr, he⟩ := addProd_err f a (-x) c h1 h2'
  refine ⟨r, ?_, rr, ?_⟩
  · rw [← e]
    cases f
    · have o3 : ofRat (-x * c) = .fin (-rnd (x * c)) := by
        rw [ofRat_real (h2'.trans (pow_mono (by norm_num))), neg_mul, rnd_neg]
      rw [subProd, addProd, if_neg (by decide), if_neg (by decide), fmul_fin, fmul_fin, o2, o3, fsub_fin, fadd_fin]
    · rfl
  · push_cast at he
    rw [neg_mul, abs_neg, ← sub_eq_add_neg] at he
    exact he

/-- The literal of the first level. -/
theorem halfRoot_err : ∃ c : ℚ, halfRoot = .fin c ∧ |(c : ℝ) - √2 / 2| ≤ 2 * u53 ∧ |(c : ℝ)| ≤ 0.71 := by
  have hs1 : (1.41421356237309504 : ℝ) ≤ √2 := by
    apply Real.le_sqrt_of_sq_le; norm_num
  have hs2 : √2 ≤ (1.41421356237309506 : ℝ) := by
    rw [Real.sqrt_le_left (by norm_num)]; norm_num
  have hr := rnd_real (707106781186547461715008466854 / 10 ^ 30)
  have hu := u53_pos
  have hu1 := u53_le
  have ht := tiny_le_u
  have hu2 : (1 : ℝ) / 10 ^ 16 ≤ 0.91 * u53 := by unfold u53; norm_num
  refine ⟨_, ofRat_real ?_, ?_⟩
  · push_cast
    refine le_trans ?_ (one_le_pow₀ (by norm_num))
    rw [abs_le]; constructor <;> norm_num
  · push_cast at hr
    rw [abs_of_nonneg (by norm_num : (0 : ℝ) ≤ 707106781186547461715008466854 / 10 ^ 30)] at hr
    rw [abs_le] at hr
    norm_num at hr hu2
    constructor
    · rw [abs_le]; constructor <;> nlinarith
    · rw [abs_le]; constructor <;> nlinarith

theorem first_part (NA NB v a xc XC Z : ℝ) (hA : 0 ≤ NA) (hB : 0 ≤ NB) (h1 : |a| ≤ NA) (h2 : |xc| ≤ 1.1 * NB + tiny)
    (h3 : |xc - XC| ≤ 4.1 * u53 * NB + tiny / 64)
    (h4 : |v - (a + xc)| ≤ 3 * u53 * (|a| + |xc|) + tiny / 16 ∧ Z = a + XC ∨
      |v - (a - xc)| ≤ 3 * u53 * (|a| + |xc|) + tiny / 16 ∧ Z = a - XC) :
    |v - Z| ≤ 8 * u53 * (NA + NB) + tiny / 2 := by
  have hu := u53_pos
  have hu1 := u53_le
  have ht0 := tiny_pos
  have h5 := mul_le_mul_of_nonneg_left (add_le_add h1 h2) (by linarith : 0 ≤ 3 * u53)
  have h6 : u53 * tiny ≤ tiny / 100 := by nlinarith
  have h7 := mul_nonneg hu.le hB
  have h8 := mul_nonneg hu.le hA
  rw [abs_le] at h3 ⊢
  rcases h4 with ⟨h4, rfl⟩ | ⟨h4, rfl⟩
  · rw [abs_le] at h4
    constructor <;> linarith [h3.1, h3.2, h4.1, h4.2]
  · rw [abs_le] at h4
    constructor <;> linarith [h3.1, h3.2, h4.1, h4.2]

theorem two_parts (Z : ℂ) (e : ℝ) (h1 : |Z.re| ≤ 8 * u53 * e + tiny / 2) (h2 : |Z.im| ≤ 8 * u53 * e + tiny / 2) :
    ‖Z‖ ≤ gam * e + tiny := by
  refine (norm_le_parts Z _ _ h1 h2).trans ?_
  rw [gam_eq]; linarith

attribute [local irreducible] halfRoot

theorem first_ok (ch : Contract) (tid n : Nat) : ButterflyOk ((floatOps ch).first tid) ((cOps n).first tid) := by
  intro a b fa fb ba bb
  obtain ⟨c, hc, ec, bc⟩ := halfRoot_err
  have hu := u53_pos
  have hu1 := u53_le
  have ht := tiny_le_u
  have ht0 := tiny_pos
  obtain ⟨p, q, rfl⟩ := fa.exists
  obtain ⟨r, s, rfl⟩ := fb.exists
  obtain ⟨a1, a2⟩ := parts_le _ _ (le_850 ba)
  obtain ⟨b1, b2⟩ := parts_le _ _ (le_850 bb)
  have hB : 0 ≤ ‖(C64.mk (.fin r) (.fin s)).val‖ := norm_nonneg _
  have hA : 0 ≤ ‖(C64.mk (.fin p) (.fin q)).val‖ := norm_nonneg _
  obtain ⟨x, ex, _, hx⟩ := add_err r (-s) b1 (by push_cast; rw [abs_neg]; exact b2)
  obtain ⟨y, ey, _, hy⟩ := add_err r s b1 b2
  have hsq : ‖(C64.mk (.fin r) (.fin s)).val‖ ^ 2 = (r : ℝ) ^ 2 + s ^ 2 := by
    rw [Complex.sq_norm, Complex.normSq_apply, val_fin]; ring
  obtain ⟨pa1, pa2⟩ := parts_le (C64.mk (.fin p) (.fin q)).val _ le_rfl
  simp only [val_fin] at pa1 pa2
  rw [← val_fin] at pa1 pa2
  have hX : |(r : ℝ) - s| ≤ 1.5 * ‖(C64.mk (.fin r) (.fin s)).val‖ :=
    abs_le_of_sq_le_sq (by nlinarith [sq_nonneg ((r : ℝ) + s)]) (by linarith)
  have hY : |(r : ℝ) + s| ≤ 1.5 * ‖(C64.mk (.fin r) (.fin s)).val‖ :=
    abs_le_of_sq_le_sq (by nlinarith [sq_nonneg ((r : ℝ) - s)]) (by linarith)
  push_cast at hx
  rw [← sub_eq_add_neg] at hx
  have h850 : ‖(C64.mk (.fin r) (.fin s)).val‖ * 1.5 + 1 ≤ 2 ^ 850 := by
    have e1 : (2 : ℝ) ^ 300 + 2 ^ 300 = 2 ^ 301 := pow_double 300
    have e4 : (2 : ℝ) ^ 301 + 2 ^ 301 = 2 ^ 302 := pow_double 301
    have e2 : (2 : ℝ) ^ 302 ≤ 2 ^ 850 := pow_mono (by norm_num)
    have e3 : (1 : ℝ) ≤ 2 ^ 300 := one_le_pow₀ (by norm_num)
    clear a1 a2 b1 b2
    generalize (2 : ℝ) ^ 300 = P at *
    generalize (2 : ℝ) ^ 301 = Q at *
    generalize (2 : ℝ) ^ 302 = Q at *
    generalize (2 : ℝ) ^ 850 = R at *
    linarith
  set NA := ‖(C64.mk (.fin p) (.fin q)).val‖
  set NB := ‖(C64.mk (.fin r) (.fin s)).val‖
  have part : ∀ (x : ℚ) (X : ℝ), |X| ≤ 1.5 * NB → |(x : ℝ) - X| ≤ u53 * |X| + tiny / 64 →
      |((x * c : ℚ) : ℝ)| ≤ 1.1 * NB + tiny ∧ |(x : ℝ) * c - X * (√2 / 2)| ≤ 4.1 * u53 * NB + tiny / 64 := by
    intro x X h1 h2
    have hx1 : |(x : ℝ) - X| ≤ 1.5 * u53 * NB + tiny / 64 := by
      have := mul_le_mul_of_nonneg_left h1 hu.le
      linarith
    have hx2 : |(x : ℝ)| ≤ 1.51 * NB + tiny / 64 := by
      have := abs_add_le ((x : ℝ) - X) X
      rw [sub_add_cancel] at this
      nlinarith
    constructor
    · push_cast
      rw [abs_mul]
      have := mul_le_mul hx2 bc (abs_nonneg _) (by linarith)
      linarith
    · have e : (x : ℝ) * c - X * (√2 / 2) = (x - X) * c + X * (c - √2 / 2) := by ring
      rw [e]
      refine (abs_add_le _ _).trans ?_
      rw [abs_mul, abs_mul]
      have := mul_le_mul hx1 bc (abs_nonneg _) (by nlinarith)
      have := mul_le_mul h1 ec (abs_nonneg _) (by linarith)
      nlinarith [mul_nonneg hu.le hB]
  obtain ⟨x1, x2⟩ := part x _ hX hx
  obtain ⟨y1, y2⟩ := part y _ hY hy
  have x850 : |((x * c : ℚ) : ℝ)| ≤ 2 ^ 850 := x1.trans (le_trans (by linarith) h850)
  have y850 : |((y * c : ℚ) : ℝ)| ≤ 2 ^ 850 := y1.trans (le_trans (by linarith) h850)
  obtain ⟨r1, e1, rr1, he1⟩ := addProd_err (ch.first tid 0) p x c a1 x850
  obtain ⟨r2, e2, rr2, he2⟩ := addProd_err (ch.first tid 1) q y c a2 y850
  obtain ⟨r3, e3, rr3, he3⟩ := subProd_err (ch.first tid 2) p x c a1 x850
  obtain ⟨r4, e4, rr4, he4⟩ := subProd_err (ch.first tid 3) q y c a2 y850
  clear a1 a2 b1 b2 x850 y850 h850 ba bb
  push_cast at x1 y1
  have hx' : (F64.fin r).sub (.fin s) = .fin x := ex
  have hval1 : (((floatOps ch).first tid ⟨.fin p, .fin q⟩ ⟨.fin r, .fin s⟩)) = (⟨.fin r1, .fin r2⟩, ⟨.fin r3, .fin r4⟩) := by
    show (C64.mk (addProd _ _ ((F64.fin r).sub (.fin s)) halfRoot) (addProd _ _ ((F64.fin r).add (.fin s)) halfRoot),
      C64.mk (subProd _ _ ((F64.fin r).sub (.fin s)) halfRoot) (subProd _ _ ((F64.fin r).add (.fin s)) halfRoot)) = _
    rw [hx', ey, hc, e1, e2, e3, e4]
  rw [hval1]
  refine ⟨⟨⟨r1, r2, rfl, rr1, rr2⟩, two_parts _ _ ?_ ?_⟩, ⟨⟨r3, r4, rfl, rr3, rr4⟩, two_parts _ _ ?_ ?_⟩⟩
  · exact first_part NA NB _ _ _ _ _ hA hB pa1 x1 x2 (Or.inl ⟨he1, rfl⟩)
  · exact first_part NA NB _ _ _ _ _ hA hB pa2 y1 y2 (Or.inl ⟨he2, rfl⟩)
  · exact first_part NA NB _ _ _ _ _ hA hB pa1 x1 x2 (Or.inr ⟨he3, rfl⟩)
  · exact first_part NA NB _ _ _ _ _ hA hB pa2 y1 y2 (Or.inr ⟨he4, rfl⟩)

/-- The scaling of the inverse transform. -/
theorem scale_ok (ch : Contract) (K k : Nat) (hK : K ≤ 40) (z : C64) (fz : z.Finite) (bz : ‖z.val‖ ≤ 2 ^ 300) :
    Close ((floatOps ch).scale (2 ^ K) k z) ((cOps (2 ^ K)).scale (2 ^ K) k z.val) (gam * (‖z.val‖ / (2 ^ K : ℕ)) + tiny) := by
  obtain ⟨p, q, rfl⟩ := fz.exists
  obtain ⟨o1, -⟩ := ofNat_exact (n := 2 ^ K) ((Nat.pow_le_pow_right (by norm_num) hK).trans (by norm_num))
  have hn0 : ((2 ^ K : ℕ) : ℚ) ≠ 0 := by positivity
  have hrep : Rep (1 / ((2 ^ K : ℕ) : ℚ)) := by
    have := rep_pow (-(K : ℤ)) (by omega)
    rw [zpow_neg, zpow_natCast, ← one_div] at this
    push_cast; exact this
  have hN : (1 : ℝ) ≤ (2 ^ K : ℕ) := by exact_mod_cast Nat.one_le_two_pow
  have hd : (F64.fin 1).div (F64.ofNat (2 ^ K)) = .fin (1 / ((2 ^ K : ℕ) : ℚ)) := by
    rw [o1]
    show (if ((2 ^ K : ℕ) : ℚ) = 0 then _ else ofRat (1 / ((2 ^ K : ℕ) : ℚ))) = _
    rw [if_neg hn0, ofRat_real, hrep.rnd_eq]
    rw [Rat.cast_div, Rat.cast_one, Rat.cast_natCast, abs_of_nonneg (by positivity)]
    refine le_trans ?_ (one_le_pow₀ (by norm_num) : (1 : ℝ) ≤ 2 ^ 900)
    rw [div_le_one (by linarith)]; exact hN
  have hu := u53_pos
  have ht := tiny_pos
  obtain ⟨a1, a2⟩ := parts_le _ _ bz
  obtain ⟨c1, c2⟩ := parts_le (C64.mk (.fin p) (.fin q)).val _ le_rfl
  simp only [val_fin] at a1 a2 c1 c2
  rw [← val_fin] at c1 c2
  generalize hn : (2 ^ K : ℕ) = n at *
  have part : ∀ v : ℚ, |(v : ℝ)| ≤ 2 ^ 300 → |(v : ℝ)| ≤ ‖(C64.mk (.fin p) (.fin q)).val‖ →
      ∃ r : ℚ, (F64.fin v).mul (.fin (1 / (n : ℚ))) = .fin r ∧ Rep r ∧
      |(r : ℝ) - v * (1 / n)| ≤ 8 * u53 * (‖(C64.mk (.fin p) (.fin q)).val‖ / n) + tiny / 2 := by
    intro v h1 h2
    refine ⟨rnd (v * (1 / n)), ?_, rep_rnd _, ?_⟩
    · rw [fmul_fin]
      apply ofRat_real
      push_cast
      rw [mul_one_div, abs_div, abs_of_pos (by linarith : (0 : ℝ) < n)]
      exact (div_le_self (abs_nonneg _) hN).trans (h1.trans (pow_mono (by norm_num)))
    · have h := rnd_real (v * (1 / n))
      clear h1 a1 a2 bz
      push_cast at h
      refine h.trans ?_
      rw [mul_one_div, abs_div, abs_of_pos (by linarith : (0 : ℝ) < n)]
      have h3 : |(v : ℝ)| / n ≤ ‖(C64.mk (.fin p) (.fin q)).val‖ / n := div_le_div_of_nonneg_right h2 (by linarith)
      have h4 := mul_le_mul_of_nonneg_left h3 hu.le
      have h5 : 0 ≤ u53 * (‖(C64.mk (.fin p) (.fin q)).val‖ / n) :=
        mul_nonneg hu.le (div_nonneg (norm_nonneg _) (by linarith))
      linarith
  obtain ⟨x, ex, rx, hx⟩ := part p a1 c1
  obtain ⟨y, ey, ry, hy⟩ := part q a2 c2
  clear a1 a2 bz
  have e : (floatOps ch).scale n k ⟨.fin p, .fin q⟩ = ⟨.fin x, .fin y⟩ := by
    simp only [floatOps, hd, ex, ey]
  refine ⟨⟨x, y, e, rx, ry⟩, ?_⟩
  refine (norm_le_parts _ (8 * u53 * (‖(C64.mk (.fin p) (.fin q)).val‖ / n) + tiny / 2) (8 * u53 * (‖(C64.mk (.fin p) (.fin q)).val‖ / n) + tiny / 2) ?_ ?_).trans ?_
  · rw [e]; exact hx
  · rw [e]; exact hy
  · rw [gam_eq]; linarith

end Verif.Cuda.Nsm
