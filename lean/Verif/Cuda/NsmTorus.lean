import Verif.Cuda.NsmInv
/-
The conversion of a value to the word added to a coefficient.
-/
namespace Verif.Cuda.Nsm
open Verif.Float Verif.Fft

/-- The number by which the GPU divides and multiplies: `2^32 - 1`, or `2^64` for 64 bits since `2^64 - 1` is rounded. -/
def scaleQ (w : Nat) : ℚ := if w = 32 then 2 ^ 32 - 1 else 2 ^ 64

theorem maxTorus_eq {w : Nat} (hw : w = 32 ∨ w = 64) : maxTorus w = .fin (scaleQ w) := by
  rcases hw with rfl | rfl <;> decide +kernel

theorem rnd_two64 : rnd (2 ^ 64 + 1) = 2 ^ 64 := by decide +kernel

theorem rep_lt_one {f : ℚ} (h : Rep f) (h1 : f < 1) : f ≤ 1 - 1 / 2 ^ 53 := by
  obtain ⟨k, e, hk, _, rfl⟩ := h
  rcases le_or_gt 0 e with he | he
  · obtain ⟨m, rfl⟩ := Int.eq_ofNat_of_zero_le he
    rw [zpow_natCast] at *
    have h2 : ((k * 2 ^ m : ℤ) : ℚ) < 1 := by push_cast; exact h1
    have h3 : k * 2 ^ m < 1 := by exact_mod_cast h2
    have h4 : ((k * 2 ^ m : ℤ) : ℚ) ≤ 0 := by exact_mod_cast (show k * 2 ^ m ≤ 0 by omega)
    push_cast at h4
    have : (0 : ℚ) ≤ 1 - 1 / 2 ^ 53 := by norm_num
    linarith
  · obtain ⟨m, rfl⟩ : ∃ m : Nat, e = -(m : ℤ) := ⟨e.natAbs, by omega⟩
    rw [zpow_neg, zpow_natCast] at *
    have hp : (0 : ℚ) < 2 ^ m := by positivity
    rcases Nat.lt_or_ge 53 m with hm | hm
    · have h2 : (k : ℚ) ≤ 2 ^ 53 := by exact_mod_cast (abs_le.1 hk).2
      have h3 : (k : ℚ) * (2 ^ m)⁻¹ ≤ 1 / 2 := by
        rw [← div_eq_mul_inv, div_le_iff₀ hp]
        have h4 : (2 : ℚ) ^ 54 ≤ 2 ^ m := pow_le_pow_right₀ (by norm_num) hm
        linarith
      linarith [show (1 / 2 : ℚ) ≤ 1 - 1 / 2 ^ 53 by norm_num]
    · rw [← div_eq_mul_inv, div_lt_iff₀ hp, one_mul] at h1
      have h2 : k < 2 ^ m := by exact_mod_cast h1
      have h3 : (k : ℚ) ≤ 2 ^ m - 1 := by
        have : k ≤ 2 ^ m - 1 := by omega
        exact_mod_cast this
      rw [← div_eq_mul_inv, div_le_iff₀ hp, sub_mul]
      have h4 : (1 : ℚ) / 2 ^ 53 * 2 ^ m ≤ 1 := by
        have : (2 : ℚ) ^ m ≤ 2 ^ 53 := pow_le_pow_right₀ (by norm_num) hm
        rw [div_mul_eq_mul_div, one_mul, div_le_one (by positivity)]; exact this
      linarith

theorem fin_small {q : ℚ} (h0 : 0 ≤ q) (h1 : q ≤ 2 ^ 65) : ofRat q = .fin (rnd q) := by
  apply ofRat_fin
  rw [abs_of_nonneg h0]
  exact h1.trans (pow_le_pow_right₀ (by norm_num) (by norm_num))

/-- The product that is converted is between zero and `2^w`. -/
theorem cast_range {w : Nat} (hw : w = 32 ∨ w = 64) (b : Bool) (o f : ℚ) (ho : o = 0 ∨ o = 1) (hf : Rep f) (hf0 : 0 ≤ f)
    (hf1 : f ≤ 1) : ∃ x : ℚ, addProd b (.fin o) (.fin f) (.fin (scaleQ w)) = .fin x ∧ 0 ≤ x ∧ x ≤ 2 ^ w := by
  have ho0 : 0 ≤ o ∧ o ≤ 1 := by rcases ho with rfl | rfl <;> norm_num
  have r0 : Rep 0 := by have := rep_int 0 (by norm_num); simpa using this
  have gen : ∀ B : ℚ, Rep B → Rep (B + 1) → 0 ≤ B → B ≤ 2 ^ 64 → f * scaleQ w ≤ B → 0 ≤ f * scaleQ w → B + 1 ≤ 2 ^ w →
      ∃ x : ℚ, addProd b (.fin o) (.fin f) (.fin (scaleQ w)) = .fin x ∧ 0 ≤ x ∧ x ≤ 2 ^ w := by
    intro B hB hB1 hB0 hB64 hfB hfs hBw
    have h1 : rnd (f * scaleQ w) ≤ B := rnd_le_of_rep hB hfB
    have h0 : 0 ≤ rnd (f * scaleQ w) := le_rnd_of_rep r0 hfs
    cases b with
    | true =>
      refine ⟨rnd (f * scaleQ w + o), ?_, le_rnd_of_rep r0 (by linarith), (rnd_le_of_rep hB1 (by linarith)).trans hBw⟩
      rw [addProd, if_pos rfl, fma_fin, fin_small (by linarith) (by norm_num at hB64 ⊢; linarith)]
    | false =>
      refine ⟨rnd (o + rnd (f * scaleQ w)), ?_, le_rnd_of_rep r0 (by linarith), (rnd_le_of_rep hB1 (by linarith)).trans hBw⟩
      rw [addProd, if_neg (by decide), fmul_fin, fin_small hfs (by norm_num at hB64 ⊢; linarith), fadd_fin,
        fin_small (by linarith) (by norm_num at hB64 ⊢; linarith)]
  rcases hw with rfl | rfl
  · refine gen (2 ^ 32 - 1) ?_ ?_ (by norm_num) (by norm_num) ?_ ?_ (by norm_num)
    · have := rep_int (2 ^ 32 - 1) (by norm_num); push_cast at this; convert this using 1; norm_num
    · have := rep_int (2 ^ 32) (by norm_num); push_cast at this; convert this using 1; norm_num
    · rw [scaleQ, if_pos rfl]; nlinarith
    · rw [scaleQ, if_pos rfl]; nlinarith
  · have es : scaleQ 64 = 2 ^ 64 := by rw [scaleQ, if_neg (by decide)]
    rcases eq_or_lt_of_le hf1 with rfl | hlt
    · -- the value one
      have r64 : rnd (2 ^ 64 : ℚ) = 2 ^ 64 := by decide +kernel
      rcases ho with rfl | rfl
      · refine ⟨2 ^ 64, ?_, by norm_num, le_rfl⟩
        cases b with
        | true => rw [addProd, if_pos rfl, fma_fin, es, add_zero, one_mul, fin_small (by norm_num) (by norm_num), r64]
        | false =>
          rw [addProd, if_neg (by decide), fmul_fin, es, one_mul, fin_small (by norm_num) (by norm_num), r64, fadd_fin, zero_add,
            fin_small (by norm_num) (by norm_num), r64]
      · refine ⟨2 ^ 64, ?_, by norm_num, le_rfl⟩
        cases b with
        | true => rw [addProd, if_pos rfl, fma_fin, es, one_mul, fin_small (by norm_num) (by norm_num), rnd_two64]
        | false =>
          rw [addProd, if_neg (by decide), fmul_fin, es, one_mul, fin_small (by norm_num) (by norm_num), r64, fadd_fin, add_comm,
            fin_small (by norm_num) (by norm_num), rnd_two64]
    · have h3 := rep_lt_one hf hlt
      -- one less than the product with the greatest number below one
      by_cases hz : f * 2 ^ 64 ≤ 2 ^ 53 - 1
      · refine gen (2 ^ 53 - 1) ?_ ?_ (by norm_num) (by norm_num) (by rw [es]; exact hz) (by rw [es]; positivity) (by norm_num)
        · have := rep_int (2 ^ 53 - 1) (by norm_num); push_cast at this; convert this using 1; norm_num
        · have := rep_int (2 ^ 53) (by norm_num); push_cast at this; convert this using 1; norm_num
      · have hB : Rep (((2 ^ 53 - 1 : ℤ) : ℚ) * 2 ^ (11 : ℤ)) := ⟨2 ^ 53 - 1, 11, by norm_num, by norm_num, rfl⟩
        have h4 : f * scaleQ 64 ≤ ((2 ^ 53 - 1 : ℤ) : ℚ) * 2 ^ (11 : ℤ) := by
          rw [es]; push_cast; norm_num at h3 ⊢; linarith
        have h5 : ((2 ^ 53 - 1 : ℤ) : ℚ) * 2 ^ (11 : ℤ) + 1 ≤ 2 ^ 64 := by norm_num
        have hr64 : Rep ((2 : ℚ) ^ 64) := by
          have := rep_pow 64 (by norm_num); simpa using this
        have h6 : rnd (f * scaleQ 64) ≤ ((2 ^ 53 - 1 : ℤ) : ℚ) * 2 ^ (11 : ℤ) := rnd_le_of_rep hB h4
        have hfs : 0 ≤ f * scaleQ 64 := by rw [es]; positivity
        have h0 : 0 ≤ rnd (f * scaleQ 64) := le_rnd_of_rep r0 hfs
        generalize ((2 ^ 53 - 1 : ℤ) : ℚ) * 2 ^ (11 : ℤ) = B at *
        have hBs : B ≤ 2 ^ 64 := by linarith
        cases b with
        | true =>
          refine ⟨rnd (f * scaleQ 64 + o), ?_, le_rnd_of_rep r0 (by linarith), rnd_le_of_rep hr64 (by linarith)⟩
          rw [addProd, if_pos rfl, fma_fin, fin_small (by linarith) (by norm_num at hBs ⊢; linarith)]
        | false =>
          refine ⟨rnd (o + rnd (f * scaleQ 64)), ?_, le_rnd_of_rep r0 (by linarith), rnd_le_of_rep hr64 (by linarith)⟩
          rw [addProd, if_neg (by decide), fmul_fin, fin_small hfs (by norm_num at hBs ⊢; linarith), fadd_fin,
            fin_small (by linarith) (by norm_num at hBs ⊢; linarith)]

/-- The conversion of a value between zero and `2^w`. -/
theorem castTorus_near {w : Nat} (hw : w = 32 ∨ w = 64) (x : ℚ) (h0 : 0 ≤ x) (h1 : x ≤ 2 ^ w) :
    ∃ V : ℤ, castTorus w (.fin x) = (V : BitVec w) ∧ |(V : ℚ) - x| ≤ 1 := by
  rcases hw with rfl | rfl
  · have e := abs_rne_sub_le x
    have n0 : 0 ≤ rne x := by
      exact rne_mono_int 0 x (by simpa using h0)
    rw [castTorus, if_pos rfl]
    simp only [double2uint, if_neg (not_lt.2 n0)]
    split
    · next h =>
      refine ⟨2 ^ 32 - 1, by decide, ?_⟩
      have h2 : (2 ^ 32 : ℚ) ≤ rne x := by exact_mod_cast h
      rw [abs_le] at e ⊢
      push_cast
      constructor <;> linarith [e.1, e.2]
    · refine ⟨rne x, ?_, e.trans (by norm_num)⟩
      rw [← BitVec.ofInt_natCast, Int.toNat_of_nonneg n0]; rfl
  · rw [castTorus, if_neg (by decide), if_pos rfl]
    rcases eq_or_lt_of_le h1 with rfl | hlt
    · refine ⟨2 ^ 64, ?_, by norm_num⟩
      decide +kernel
    · have hle : F64.le (F64.powi2 64) (.fin x) = false := by
        rw [powi2_eq 64 (by norm_num) (by norm_num)]
        exact decide_eq_false (not_le.2 (by simpa using hlt))
      rw [lowWord, if_neg (by rw [hle]; decide), castU64, if_pos ⟨by linarith, hlt⟩]
      refine ⟨⌊x⌋, ?_, ?_⟩
      · rw [← BitVec.ofInt_natCast, Int.toNat_of_nonneg (Int.floor_nonneg.2 h0)]; rfl
      · have := Int.floor_le x
        have := Int.lt_floor_add_one x
        rw [abs_le]; constructor <;> linarith

theorem scale_le {w : Nat} (hw : w = 32 ∨ w = 64) : (scaleQ w : ℝ) ≤ 2 ^ w ∧ (2 : ℝ) ^ w - 1 ≤ scaleQ w ∧ (1000 : ℝ) ≤ scaleQ w := by
  rcases hw with rfl | rfl
  · simp only [scaleQ, if_pos]; push_cast; norm_num
  · rw [scaleQ, if_neg (by decide)]; push_cast; norm_num

theorem two_pow_cast (w : Nat) (a : ℤ) : ((2 ^ w * a : ℤ) : BitVec w) = 0 := by
  apply BitVec.eq_of_toInt_eq
  show (BitVec.ofInt w (2 ^ w * a)).toInt = _
  rw [BitVec.toInt_ofInt]
  have h : (1 : ℤ) ≤ 2 ^ w := by exact_mod_cast Nat.one_le_two_pow
  simp only [Int.bmod, Nat.cast_pow, Nat.cast_ofNat, Int.mul_emod_right]
  rw [if_pos (by omega)]
  exact BitVec.toInt_zero.symm

/-- The word added for a value `p`: the nearest one to `p` times `scaleQ w`, up to an error. -/
theorem torusWord_near {w : Nat} (hw : w = 32 ∨ w = 64) (ch : Contract) (k : Nat) (second : Bool) (p : ℚ) :
    ∃ K : ℤ, torusWord w ch k second (.fin p) = (K : BitVec w) ∧
      |(K : ℝ) - scaleQ w * p| ≤ 3 + 8 * 2 ^ w * u53 + (2 ^ w - scaleQ w) * (|(p : ℝ)| + 1) := by
  have r0 : Rep 0 := by have := rep_int 0 (by norm_num); simpa using this
  have r1 : Rep 1 := by have := rep_int 1 (by norm_num); simpa using this
  set fr : ℚ := p + -(⌊p⌋ : ℚ) with hfr
  have hfr0 : 0 ≤ fr := by have := Int.floor_le p; rw [hfr]; linarith
  have hfr1 : fr ≤ 1 := by have := Int.lt_floor_add_one p; rw [hfr]; linarith
  have hfrac : (F64.fin p).sub (floorF (.fin p)) = .fin (rnd fr) := by
    rw [floorF, fsub_fin, ← hfr, fin_small hfr0 (hfr1.trans (by norm_num))]
  have hf0 : 0 ≤ rnd fr := le_rnd_of_rep r0 hfr0
  have hf1 : rnd fr ≤ 1 := rnd_le_of_rep r1 hfr1
  obtain ⟨o, ho, e⟩ : ∃ o : ℚ, (o = 0 ∨ o = 1) ∧ torusWord w ch k second (.fin p) =
      castTorus w (addProd (ch.torus k 1) (.fin o) (.fin (rnd fr)) (.fin (scaleQ w))) := by
    rw [torusWord]
    simp only [hfrac, maxTorus_eq hw]
    refine ⟨_, ?_, rfl⟩
    split <;> simp
  obtain ⟨x, hx, x0, x1⟩ := cast_range hw (ch.torus k 1) o (rnd fr) ho (rep_rnd _) hf0 hf1
  obtain ⟨V, hV, hVx⟩ := castTorus_near hw x x0 x1
  obtain ⟨s1, s2, s3⟩ := scale_le hw
  have hW64 : (2 : ℝ) ^ w ≤ 2 ^ 64 := pow_mono (by omega)
  have hoR : (0 : ℝ) ≤ o ∧ (o : ℝ) ≤ 1 := by rcases ho with rfl | rfl <;> norm_num
  have hfR : (0 : ℝ) ≤ (rnd fr : ℚ) ∧ ((rnd fr : ℚ) : ℝ) ≤ 1 := ⟨by exact_mod_cast hf0, by exact_mod_cast hf1⟩
  have hfrR : (0 : ℝ) ≤ (fr : ℚ) ∧ ((fr : ℚ) : ℝ) ≤ 1 := ⟨by exact_mod_cast hfr0, by exact_mod_cast hfr1⟩
  have hfs : (0 : ℝ) ≤ ((rnd fr : ℚ) : ℝ) * scaleQ w ∧ ((rnd fr : ℚ) : ℝ) * scaleQ w ≤ 2 ^ w := by
    refine ⟨mul_nonneg hfR.1 (by linarith), ?_⟩
    calc ((rnd fr : ℚ) : ℝ) * scaleQ w ≤ 1 * scaleQ w := mul_le_mul_of_nonneg_right hfR.2 (by linarith)
      _ ≤ 2 ^ w := by linarith
  obtain ⟨r, hr, _, herr⟩ := addProd_err (ch.torus k 1) o (rnd fr) (scaleQ w)
    (by rw [abs_of_nonneg hoR.1]; exact hoR.2.trans (one_le_pow₀ (by norm_num)))
    (by push_cast; rw [abs_of_nonneg hfs.1]; exact (hfs.2.trans hW64).trans (pow_mono (by norm_num)))
  rw [hx] at hr
  obtain rfl : x = r := by injection hr
  rw [abs_of_nonneg hoR.1, abs_of_nonneg hfs.1] at herr
  have hfl := rnd_real fr
  rw [abs_of_nonneg hfrR.1] at hfl
  have hVx' : |(V : ℝ) - x| ≤ 1 := by
    have : ((|(V : ℚ) - x| : ℚ) : ℝ) ≤ ((1 : ℚ) : ℝ) := Rat.cast_le.mpr hVx
    push_cast at this
    exact this
  refine ⟨V + 2 ^ w * ⌊p⌋, ?_, ?_⟩
  · rw [e, hx, hV, Int.cast_add, two_pow_cast, add_zero]
  · have hu := u53_pos
    have hu1 := u53_le
    have ht := tiny_le_u
    have ht0 := tiny_pos
    clear hW64
    have hp : (p : ℝ) = fr + (⌊p⌋ : ℤ) := by rw [hfr]; push_cast; ring
    have hfloor : |((⌊p⌋ : ℤ) : ℝ)| ≤ |(p : ℝ)| + 1 := by
      have e1 : ((⌊p⌋ : ℤ) : ℝ) = p - fr := by linarith
      rw [e1]
      refine (abs_sub _ _).trans ?_
      rw [abs_of_nonneg hfrR.1]; linarith
    have hd : (0 : ℝ) ≤ 2 ^ w - scaleQ w := by linarith
    have t1 : |((2 : ℝ) ^ w - scaleQ w) * (⌊p⌋ : ℤ)| ≤ (2 ^ w - scaleQ w) * (|(p : ℝ)| + 1) := by
      rw [abs_mul, abs_of_nonneg hd]; exact mul_le_mul_of_nonneg_left hfloor hd
    have t2 : |(scaleQ w : ℝ) * (((rnd fr : ℚ) : ℝ) - fr)| ≤ 2 ^ w * (2 * u53) := by
      rw [abs_mul, abs_of_nonneg (by linarith : (0 : ℝ) ≤ scaleQ w)]
      refine mul_le_mul s1 (hfl.trans ?_) (abs_nonneg _) (by linarith)
      have := mul_le_mul_of_nonneg_left hfrR.2 hu.le
      linarith
    have t3 : 3 * u53 * ((o : ℝ) + ((rnd fr : ℚ) : ℝ) * scaleQ w) + tiny / 16 ≤ 1 / 2 + 3 * (2 ^ w * u53) := by
      have h1 : u53 * ((o : ℝ) + ((rnd fr : ℚ) : ℝ) * scaleQ w) ≤ u53 * (1 + 2 ^ w) :=
        mul_le_mul_of_nonneg_left (by linarith) hu.le
      linarith
    have hWu : 0 ≤ (2 : ℝ) ^ w * u53 := by positivity
    have key : ((V + 2 ^ w * ⌊p⌋ : ℤ) : ℝ) - scaleQ w * p =
        ((V : ℝ) - x) + ((x : ℝ) - (o + ((rnd fr : ℚ) : ℝ) * scaleQ w)) + o + scaleQ w * (((rnd fr : ℚ) : ℝ) - fr) +
          ((2 : ℝ) ^ w - scaleQ w) * (⌊p⌋ : ℤ) := by
      rw [hp]; push_cast; ring
    rw [key]
    rw [abs_le] at hVx' herr t1 t2 ⊢
    constructor <;> linarith [hVx'.1, hVx'.2, herr.1, herr.2, t1.1, t1.2, t2.1, t2.2]

end Verif.Cuda.Nsm
