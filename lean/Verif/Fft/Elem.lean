import Verif.Fft.Twist
import Verif.Fft.Round
/-
Errors of the conversions to and from the Fourier domain, for one element.
-/
namespace Verif.Fft
open Verif.Float Verif.Encode

variable {w : ℕ}

theorem tiny_le_u : tiny ≤ u53 / 64 := by
  have := tiny_n (n := 1) (one_le_pow₀ (by norm_num))
  linarith

/-- The float nearest to a signed integer. -/
theorem ofSigned_fin (x : BitVec w) (hw : w ≤ 128) : ofSigned x = .fin (rnd (x.toInt : ℚ)) := by
  unfold ofSigned
  apply ofRat_real
  have h1 : |x.toInt| ≤ 2 ^ w := by
    have := BitVec.le_two_mul_toInt (x := x)
    have := BitVec.two_mul_toInt_lt (x := x)
    rw [abs_le]; constructor <;> omega
  have h2 : |((x.toInt : ℚ) : ℝ)| ≤ 2 ^ w := by
    push_cast
    exact_mod_cast h1
  exact h2.trans (pow_mono (by omega))

/-- A coefficient converted as an integer. -/
theorem signed_err (x : BitVec w) (hw : w ≤ 128) (β : ℝ) (hβ : 1 ≤ β) (hx : |(x.toInt : ℝ)| ≤ β / 2) :
    ∃ q : ℚ, ofSigned x = .fin q ∧ |(q : ℝ) - x.toInt| ≤ 2 * u53 * β := by
  refine ⟨_, ofSigned_fin x hw, ?_⟩
  have h := rnd_real (x.toInt : ℚ)
  push_cast at h
  have := u53_pos
  have := tiny_le_u
  have h1 : u53 * |(x.toInt : ℝ)| ≤ u53 * (β / 2) := mul_le_mul_of_nonneg_left hx u53_pos.le
  nlinarith

/-- A coefficient converted as a torus element. -/
theorem torus_err (x : BitVec w) (hw : w ≤ 128) :
    ∃ q : ℚ, (ofSigned x).mul (F64.powi2 (-(w : ℤ))) = .fin q ∧
      |(q : ℝ) - (1 / 2 ^ w : ℝ) * x.toInt| ≤ 2 * u53 * 1 ∧ |(1 / 2 ^ w : ℝ) * x.toInt| ≤ 1 / 2 := by
  have hX : |(x.toInt : ℝ)| ≤ 2 ^ w / 2 := by
    have h1 : |2 * x.toInt| ≤ 2 ^ w := by
      have := BitVec.le_two_mul_toInt (x := x)
      have := BitVec.two_mul_toInt_lt (x := x)
      rw [abs_le]; constructor <;> omega
    have h2 : |(2 : ℝ) * x.toInt| ≤ 2 ^ w := by exact_mod_cast h1
    rw [abs_mul, abs_two] at h2
    linarith
  have hp : (0 : ℝ) < 2 ^ w := by positivity
  have hp1 : (1 : ℝ) ≤ 2 ^ w := one_le_pow₀ (by norm_num)
  have hs : |(1 / 2 ^ w : ℝ) * x.toInt| ≤ 1 / 2 := by
    rw [abs_mul, abs_of_pos (by positivity : (0 : ℝ) < 1 / 2 ^ w)]
    calc (1 / 2 ^ w : ℝ) * |(x.toInt : ℝ)| ≤ 1 / 2 ^ w * (2 ^ w / 2) := mul_le_mul_of_nonneg_left hX (by positivity)
      _ = 1 / 2 := by field_simp
  have h1 := rnd_real (x.toInt : ℚ)
  have hw1 : |((rnd (x.toInt : ℚ) : ℚ) : ℝ) * (1 / 2 ^ w) - (1 / 2 ^ w : ℝ) * x.toInt| ≤ u53 * (1 / 2) + tiny / 64 := by
    push_cast at h1
    have e : ((rnd (x.toInt : ℚ) : ℚ) : ℝ) * (1 / 2 ^ w) - (1 / 2 ^ w : ℝ) * x.toInt =
      (1 / 2 ^ w) * (((rnd (x.toInt : ℚ) : ℚ) : ℝ) - x.toInt) := by ring
    rw [e, abs_mul, abs_of_pos (by positivity : (0 : ℝ) < 1 / 2 ^ w)]
    rw [abs_mul, abs_of_pos (by positivity : (0 : ℝ) < 1 / 2 ^ w)] at hs
    have h3 : (1 / 2 ^ w : ℝ) ≤ 1 := by rw [div_le_one hp]; exact hp1
    have h4 := mul_le_mul_of_nonneg_left h1 (by positivity : (0 : ℝ) ≤ 1 / 2 ^ w)
    have h5 : (1 / 2 ^ w : ℝ) * (tiny / 64) ≤ 1 * (tiny / 64) :=
      mul_le_mul_of_nonneg_right h3 (by have := tiny_pos; positivity)
    have h6 := mul_le_mul_of_nonneg_left hs u53_pos.le
    nlinarith
  have hsmall : |((rnd (x.toInt : ℚ) * 2 ^ (-(w : ℤ)) : ℚ) : ℝ)| ≤ 1 := by
    have e : ((rnd (x.toInt : ℚ) * 2 ^ (-(w : ℤ)) : ℚ) : ℝ) = ((rnd (x.toInt : ℚ) : ℚ) : ℝ) * (1 / 2 ^ w) := by
      push_cast
      rw [zpow_neg, zpow_natCast, one_div]
    rw [e]
    have := u53_le
    have := tiny_le_u
    rw [abs_le] at hw1 hs ⊢
    constructor <;> linarith [hw1.1, hw1.2, hs.1, hs.2]
  refine ⟨rnd (rnd (x.toInt : ℚ) * 2 ^ (-(w : ℤ))), ?_, ?_, hs⟩
  · rw [ofSigned_fin x hw, powi2_eq _ (by omega) (by omega), fmul_fin]
    apply ofRat_real
    exact hsmall.trans (one_le_pow₀ (by norm_num))
  · have h2 := rnd_real (rnd (x.toInt : ℚ) * 2 ^ (-(w : ℤ)))
    have e : ((rnd (x.toInt : ℚ) * 2 ^ (-(w : ℤ)) : ℚ) : ℝ) = ((rnd (x.toInt : ℚ) : ℚ) : ℝ) * (1 / 2 ^ w) := by
      push_cast
      rw [zpow_neg, zpow_natCast, one_div]
    have h3 := mul_le_mul_of_nonneg_left hsmall u53_pos.le
    rw [e] at h2 h3
    have := u53_pos
    have := tiny_le_u
    rw [abs_le] at h2 hw1 ⊢
    constructor <;> linarith [h2.1, h2.2, hw1.1, hw1.2]

/-- A product of two approximations. -/
theorem mul_approx {a b A B z : ℂ} {ea eb ez K L : ℝ} (hz : ‖z - a * b‖ ≤ ez) (ha : ‖a - A‖ ≤ ea) (hb : ‖b - B‖ ≤ eb)
    (hA : ‖A‖ ≤ K) (hB : ‖b‖ ≤ L) (hK : 0 ≤ ea) : ‖z - A * B‖ ≤ ez + ea * L + K * eb := by
  have e : z - A * B = (z - a * b) + (a - A) * b + A * (b - B) := by ring
  rw [e]
  refine (norm_add_le _ _).trans ?_
  have h1 := norm_add_le (z - a * b) ((a - A) * b)
  rw [norm_mul] at h1
  rw [norm_mul]
  have h2 : ‖a - A‖ * ‖b‖ ≤ ea * L := mul_le_mul ha hB (norm_nonneg _) hK
  have h3 : ‖A‖ * ‖b - B‖ ≤ K * eb := mul_le_mul hA hb (norm_nonneg _) ((norm_nonneg _).trans hA)
  linarith

/-- The twisted element, whichever product is used. -/
theorem elem_err (a t z : C64) (A T : ℂ) (β : ℝ) (hβ : 1 ≤ β) (hβ2 : β ≤ 2 ^ 100) (hA : ‖A‖ ≤ β)
    (haA : ‖a.val - A‖ ≤ 4 * u53 * β) (hT : ‖T‖ = 1) (htT : ‖t.val - T‖ ≤ gam)
    (hz : ‖a.val‖ ≤ 2 ^ 400 → ‖t.val‖ ≤ 2 ^ 400 →
      Close z (a.val * t.val) (6 * u53 * (‖a.val‖ * ‖t.val‖) + tiny / 8)) :
    z.Finite ∧ ‖z.val - A * T‖ ≤ 2 * gam * β := by
  have hu := u53_pos
  have hu1 := u53_le
  have ht := tiny_le_u
  have p4 : 0 ≤ 4 * u53 * β := mul_nonneg (by linarith) (by linarith)
  have p1 : 0 ≤ 1.01 * β := by linarith
  have ha : ‖a.val‖ ≤ 1.01 * β := by
    have := norm_add_le (a.val - A) A
    rw [sub_add_cancel] at this
    nlinarith
  have htv : ‖t.val‖ ≤ 1.01 := by
    have := norm_add_le (t.val - T) T
    rw [sub_add_cancel, hT] at this
    rw [gam_eq] at htT
    linarith
  have h400 : (2 : ℝ) * 2 ^ 100 ≤ 2 ^ 400 := by
    rw [← pow_succ']
    exact pow_mono (by norm_num)
  obtain ⟨hr, hc⟩ := hz
    (by clear hz; refine (ha.trans ?_).trans h400
        generalize (2 : ℝ) ^ 100 = P at *
        linarith)
    (by clear hz; refine le_trans ?_ h400
        have : (1 : ℝ) ≤ 2 ^ 100 := one_le_pow₀ (by norm_num)
        generalize (2 : ℝ) ^ 100 = P at *
        linarith)
  refine ⟨hr.finite, ?_⟩
  clear hz h400 hβ2
  have := mul_approx hc haA htT hA htv p4
  refine this.trans ?_
  have h1 : ‖a.val‖ * ‖t.val‖ ≤ 1.01 * β * 1.01 := mul_le_mul ha htv (norm_nonneg _) p1
  have h2 : 6 * u53 * (‖a.val‖ * ‖t.val‖) ≤ 6 * u53 * (1.01 * β * 1.01) := mul_le_mul_of_nonneg_left h1 (by linarith)
  rw [gam_eq]
  have h3 : 0 ≤ u53 * β := by linarith
  have h4 : u53 ≤ u53 * β := by nlinarith
  linarith

theorem norm_parts {re im : ℝ} {b : ℝ} (h1 : |re| ≤ b) (h2 : |im| ≤ b) : ‖((re : ℂ) + (im : ℂ) * Complex.I)‖ ≤ 2 * b := by
  refine (norm_le_parts _ b b ?_ ?_).trans (by linarith)
  · simpa using h1
  · simpa using h2

/-- The value to which an element of the input is to be converted. -/
noncomputable def packed (s : ℝ) (re im : BitVec w) : ℂ := s * ((re.toInt : ℂ) + (im.toInt : ℂ) * Complex.I)

theorem packed_eq (s : ℝ) (re im : BitVec w) :
    packed s re im = ((s * re.toInt : ℝ) : ℂ) + ((s * im.toInt : ℝ) : ℂ) * Complex.I := by
  unfold packed
  push_cast
  ring

theorem pair_err (p q : ℚ) (X Y : ℝ) (e : ℝ) (h1 : |(p : ℝ) - X| ≤ e) (h2 : |(q : ℝ) - Y| ≤ e) :
    ‖(C64.mk (.fin p) (.fin q)).val - ((X : ℂ) + (Y : ℂ) * Complex.I)‖ ≤ 2 * e := by
  refine (norm_le_parts _ e e ?_ ?_).trans (by linarith)
  · simpa [val_fin] using h1
  · simpa [val_fin] using h2

theorem torusElt_err (re im : BitVec w) (hw : w ≤ 128) (t : C64) (T : ℂ) (hT : ‖T‖ = 1) (ht : t.Finite)
    (htT : ‖t.val - T‖ ≤ gam) :
    (torusElt re im t).Finite ∧ ‖(torusElt re im t).val - packed (1 / 2 ^ w) re im * T‖ ≤ 2 * gam * 1 ∧
      ‖packed (1 / 2 ^ w) re im‖ ≤ 1 := by
  obtain ⟨p, hp, e1, b1⟩ := torus_err re hw
  obtain ⟨q, hq, e2, b2⟩ := torus_err im hw
  have hA : ‖packed (1 / 2 ^ w) re im‖ ≤ 1 := by
    rw [packed_eq]
    have := norm_parts b1 b2
    linarith
  have haA : ‖(C64.mk (.fin p) (.fin q)).val - packed (1 / 2 ^ w) re im‖ ≤ 4 * u53 * 1 := by
    rw [packed_eq]
    refine (pair_err p q _ _ _ e1 e2).trans ?_
    linarith
  have := elem_err ⟨.fin p, .fin q⟩ t (torusElt re im t) _ T 1 le_rfl (one_le_pow₀ (by norm_num)) hA haA hT htT
    (fun h1 h2 => by
      unfold torusElt
      dsimp only
      rw [hp, hq]
      exact mul_err _ _ ⟨trivial, trivial⟩ ht h1 h2)
  exact ⟨this.1, this.2, hA⟩

theorem digit_err (re im : BitVec w) (hw : w ≤ 128) (D : ℝ) (hD : 1 ≤ D) (hD2 : D ≤ 2 ^ 90)
    (hre : |(re.toInt : ℝ)| ≤ D) (him : |(im.toInt : ℝ)| ≤ D) (t : C64) (T : ℂ) (hT : ‖T‖ = 1) (ht : t.Finite)
    (htT : ‖t.val - T‖ ≤ gam) (fused : Bool) :
    let z := if fused then mulFused (ofSigned re) (ofSigned im) t else integerElt re im t
    z.Finite ∧ ‖z.val - packed 1 re im * T‖ ≤ 2 * gam * (2 * D) ∧ ‖packed 1 re im‖ ≤ 2 * D := by
  obtain ⟨p, hp, e1⟩ := signed_err re hw (2 * D) (by linarith) (by linarith)
  obtain ⟨q, hq, e2⟩ := signed_err im hw (2 * D) (by linarith) (by linarith)
  have hA : ‖packed 1 re im‖ ≤ 2 * D := by
    rw [packed_eq]
    simp only [one_mul]
    exact norm_parts hre him
  have haA : ‖(C64.mk (.fin p) (.fin q)).val - packed 1 re im‖ ≤ 4 * u53 * (2 * D) := by
    rw [packed_eq]
    simp only [one_mul]
    refine (pair_err p q _ _ _ e1 e2).trans ?_
    linarith
  have h100 : 2 * D ≤ 2 ^ 100 := by
    have : (2 : ℝ) * 2 ^ 90 ≤ 2 ^ 100 := by norm_num
    linarith
  intro z
  have := elem_err ⟨.fin p, .fin q⟩ t z _ T (2 * D) (by linarith) h100 hA haA hT htT
    (fun h1 h2 => by
      simp only [z]
      rw [hp, hq]
      unfold integerElt
      rw [hp, hq]
      split
      · exact mulFused_err ⟨.fin p, .fin q⟩ _ ⟨trivial, trivial⟩ ht h1 h2
      · exact mul_err _ _ ⟨trivial, trivial⟩ ht h1 h2)
  exact ⟨this.1, this.2, hA⟩

/-! ### Backward -/

/-- The reciprocal of the size. -/
theorem recip_err {n : ℕ} (hn0 : 0 < n) (hn : n ≤ 2 ^ 40) :
    ∃ ν : ℚ, (F64.fin 1).div (F64.ofNat n) = .fin ν ∧ |(ν : ℝ) - 1 / n| ≤ 1.1 * u53 / n := by
  obtain ⟨o1, -⟩ := ofNat_exact (n := n) (hn.trans (by norm_num))
  have hnq : (n : ℚ) ≠ 0 := by exact_mod_cast hn0.ne'
  have hN : (1 : ℝ) ≤ n := by exact_mod_cast hn0
  have hn40 : (n : ℝ) ≤ 2 ^ 40 := by exact_mod_cast hn
  refine ⟨rnd (1 / n), ?_, ?_⟩
  · rw [o1]
    show (if (n : ℚ) = 0 then _ else ofRat (1 / n)) = _
    rw [if_neg hnq]
    apply ofRat_real
    push_cast
    rw [abs_of_nonneg (by positivity)]
    refine le_trans ?_ (one_le_pow₀ (by norm_num) : (1 : ℝ) ≤ 2 ^ 900)
    rw [div_le_one (by linarith)]
    exact hN
  · have h := rnd_real (1 / n)
    push_cast at h
    rw [abs_of_nonneg (by positivity : (0 : ℝ) ≤ 1 / n)] at h
    have hη := tiny_n (n := n) (hn40.trans (pow_mono (by norm_num)))
    have h2 : tiny / 64 ≤ 0.1 * u53 / n := by
      rw [le_div_iff₀ (by linarith)]
      have := u53_pos
      linarith
    have e : u53 * (1 / (n : ℝ)) + 0.1 * u53 / n = 1.1 * u53 / n := by ring
    linarith

/-- The scaled twisting factor. -/
theorem weight_err {n : ℕ} (hn0 : 0 < n) (hn : n ≤ 2 ^ 40) (t : C64) (T : ℂ) (hT : ‖T‖ = 1) (ht : t.Finite)
    (htT : ‖t.val - T‖ ≤ gam) :
    ∃ W : C64, W.Finite ∧ t.conj.scale ((F64.fin 1).div (F64.ofNat n)) = W ∧
      (∀ z : C64, z.Finite → ‖z.val‖ ≤ 2 ^ 400 → backFused n z t = mulFused z.re z.im W) ∧
      ‖W.val - (starRingEnd ℂ) T / n‖ ≤ 2 * gam / n := by
  obtain ⟨ν, hν, eν⟩ := recip_err hn0 hn
  obtain ⟨x, y, rfl⟩ := ht.exists
  have hN : (1 : ℝ) ≤ n := by exact_mod_cast hn0
  have hn40 : (n : ℝ) ≤ 2 ^ 40 := by exact_mod_cast hn
  have hu := u53_pos
  have hu1 := u53_le
  have hη := tiny_n (n := n) (hn40.trans (pow_mono (by norm_num)))
  have htv : ‖(C64.mk (.fin x) (.fin y)).val‖ ≤ 1.01 := by
    have := norm_add_le ((C64.mk (.fin x) (.fin y)).val - T) T
    rw [sub_add_cancel, hT] at this
    rw [gam_eq] at htT
    linarith
  obtain ⟨hx, hy⟩ := parts_le _ _ htv
  simp only [val_fin] at hx hy
  have hνb : |(ν : ℝ)| ≤ 1.01 / n := by
    have := abs_add_le ((ν : ℝ) - 1 / n) (1 / n)
    rw [sub_add_cancel, abs_of_nonneg (by positivity : (0 : ℝ) ≤ 1 / n)] at this
    have e : 1.1 * u53 / n + 1 / n ≤ 1.01 / n := by
      rw [← add_div]
      apply div_le_div_of_nonneg_right _ (by linarith)
      linarith
    linarith
  have hnu1 : (1.01 : ℝ) / n ≤ 1.01 := div_le_self (by norm_num) hN
  have h900 : (4 : ℝ) ≤ 2 ^ 900 := le_trans (by norm_num : (4 : ℝ) ≤ 2 ^ 2) (pow_mono (by norm_num))
  have key : ∀ v : ℚ, |(v : ℝ)| ≤ 1.01 → ofRat (v * ν) = .fin (rnd (v * ν)) ∧
      |((rnd (v * ν) : ℚ) : ℝ) - v / n| ≤ 3 * u53 / n ∧ |((rnd (v * ν) : ℚ) : ℝ)| ≤ 2 := by
    intro v hv
    have hb : |((v * ν : ℚ) : ℝ)| ≤ 1.03 / n := by
      push_cast
      rw [abs_mul]
      calc |(v : ℝ)| * |(ν : ℝ)| ≤ 1.01 * (1.01 / n) := mul_le_mul hv hνb (abs_nonneg _) (by norm_num)
        _ = 1.0201 / n := by ring
        _ ≤ 1.03 / n := div_le_div_of_nonneg_right (by norm_num) (by linarith)
    have hb1 : (1.03 : ℝ) / n ≤ 1.03 := div_le_self (by norm_num) hN
    have hr := rnd_real (v * ν)
    have h2 : |((v * ν : ℚ) : ℝ) - v / n| ≤ 1.2 * u53 / n := by
      push_cast
      have e : (v : ℝ) * ν - v / n = v * (ν - 1 / n) := by ring
      rw [e, abs_mul]
      calc |(v : ℝ)| * |(ν : ℝ) - 1 / n| ≤ 1.01 * (1.1 * u53 / n) := mul_le_mul hv eν (abs_nonneg _) (by norm_num)
        _ = 1.111 * u53 / n := by ring
        _ ≤ 1.2 * u53 / n := div_le_div_of_nonneg_right (by nlinarith) (by linarith)
    have h3 : u53 * |((v * ν : ℚ) : ℝ)| ≤ 1.03 * u53 / n := by
      have := mul_le_mul_of_nonneg_left hb hu.le
      calc u53 * |((v * ν : ℚ) : ℝ)| ≤ u53 * (1.03 / n) := this
        _ = 1.03 * u53 / n := by ring
    have h4 : tiny / 64 ≤ 0.1 * u53 / n := by
      rw [le_div_iff₀ (by linarith)]
      linarith
    refine ⟨ofRat_real (hb.trans (hb1.trans ((by norm_num : (1.03 : ℝ) ≤ 4).trans h900))), ?_, ?_⟩
    · have := abs_add_le (((rnd (v * ν) : ℚ) : ℝ) - ((v * ν : ℚ) : ℝ)) (((v * ν : ℚ) : ℝ) - v / n)
      rw [sub_add_sub_cancel] at this
      have e : 1.03 * u53 / n + 0.1 * u53 / n + 1.2 * u53 / n ≤ 3 * u53 / (n : ℝ) := by
        rw [← add_div, ← add_div]
        exact div_le_div_of_nonneg_right (by linarith) (by linarith)
      linarith
    · have := abs_add_le (((rnd (v * ν) : ℚ) : ℝ) - ((v * ν : ℚ) : ℝ)) ((v * ν : ℚ) : ℝ)
      rw [sub_add_cancel] at this
      have e : 1.03 * u53 / (n : ℝ) ≤ 1.03 * u53 := div_le_self (by linarith) hN
      have e' : 0.1 * u53 / (n : ℝ) ≤ 0.1 * u53 := div_le_self (by linarith) hN
      linarith
  obtain ⟨k1, k2, k3⟩ := key x hx
  obtain ⟨k4, k5, k6⟩ := key (-y) (by push_cast; rw [abs_neg]; exact hy)
  refine ⟨⟨.fin (rnd (x * ν)), .fin (rnd (-y * ν))⟩, ⟨trivial, trivial⟩, ?_, ?_, ?_⟩
  · unfold C64.conj C64.scale
    dsimp only
    rw [hν, neg_fin, fmul_fin, fmul_fin, k1, k4]
  · intro z hz hzb
    obtain ⟨p, q, rfl⟩ := hz.exists
    obtain ⟨zp, zq⟩ := parts_le _ _ hzb
    simp only [val_fin] at zp zq
    have hyν : ofRat (ν * y) = .fin (-rnd (-y * ν)) := by
      have e : ν * y = -(-y * ν) := by ring
      rw [e, ← rnd_neg]
      apply ofRat_real
      rw [Rat.cast_neg, abs_neg]
      have hb : |((-y * ν : ℚ) : ℝ)| ≤ 4 := by
        push_cast
        rw [abs_mul, abs_neg]
        calc |(y : ℝ)| * |(ν : ℝ)| ≤ 1.01 * 1.01 := mul_le_mul hy (hνb.trans hnu1) (abs_nonneg _) (by norm_num)
          _ ≤ 4 := by norm_num
      exact hb.trans h900
    unfold backFused mulFused
    dsimp only
    rw [hν, fmul_fin, fmul_fin, mul_comm ν x, k1, hyν, fmul_fin, fmul_fin, neg_fin, fmul_fin]
    set a := rnd (x * ν) with ha
    set b := rnd (-y * ν) with hb
    have h401 : (2 : ℝ) ^ 400 * 2 ≤ 2 ^ 900 := by
      rw [← pow_succ]
      exact pow_mono (by norm_num)
    have fin1 : ofRat (q * -b) = .fin (rnd (q * -b)) := by
      apply ofRat_real
      push_cast
      rw [abs_mul, abs_neg]
      exact (mul_le_mul zq k6 (abs_nonneg _) (by positivity)).trans h401
    have fin2 : ofRat (q * b) = .fin (rnd (q * b)) := by
      apply ofRat_real
      push_cast
      rw [abs_mul]
      exact (mul_le_mul zq k6 (abs_nonneg _) (by positivity)).trans h401
    have fin3 : ofRat (q * a) = .fin (rnd (q * a)) := by
      apply ofRat_real
      push_cast
      rw [abs_mul]
      exact (mul_le_mul zq k3 (abs_nonneg _) (by positivity)).trans h401
    rw [fin1, fin2, fin3, neg_fin, fma_fin, fma_fin, fma_fin, fma_fin, ← rnd_neg (q * b),
      show -(q * b) = q * -b by ring, show -p * -b = p * b by ring]
  · have h1 : ‖(C64.mk (.fin (rnd (x * ν))) (.fin (rnd (-y * ν)))).val - (starRingEnd ℂ) (C64.mk (.fin x) (.fin y)).val / n‖ ≤
        6 * u53 / n := by
      refine (norm_le_parts _ (3 * u53 / n) (3 * u53 / n) ?_ ?_).trans (le_of_eq (by ring))
      · simp only [val_fin, Complex.sub_re, Complex.div_natCast_re, Complex.conj_re]
        exact k2
      · simp only [val_fin, Complex.sub_im, Complex.div_natCast_im, Complex.conj_im]
        rw [Rat.cast_neg] at k5
        exact k5
    have h2 : ‖(starRingEnd ℂ) (C64.mk (.fin x) (.fin y)).val / n - (starRingEnd ℂ) T / n‖ ≤ gam / n := by
      rw [← sub_div, ← map_sub, norm_div, Complex.norm_conj, Complex.norm_natCast]
      exact div_le_div_of_nonneg_right htT (by linarith)
    have := norm_add_le ((C64.mk (.fin (rnd (x * ν))) (.fin (rnd (-y * ν)))).val - (starRingEnd ℂ) (C64.mk (.fin x) (.fin y)).val / n)
      ((starRingEnd ℂ) (C64.mk (.fin x) (.fin y)).val / n - (starRingEnd ℂ) T / n)
    rw [sub_add_sub_cancel] at this
    have e : 6 * u53 / n + gam / n ≤ 2 * gam / (n : ℝ) := by
      rw [← add_div]
      apply div_le_div_of_nonneg_right _ (by linarith)
      rw [gam_eq]
      linarith
    linarith

end Verif.Fft
