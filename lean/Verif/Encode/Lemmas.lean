import Verif.Encode.Model
import Verif.Float.Lemmas
import Verif.Decomp.Lemmas
/-
Helper lemmas on the torus conversions and the bit manipulations of the encoders.
-/
namespace Verif.Encode
open Verif.Float

/-! ### `from_torus` and `into_torus` -/

theorem fin_sub (a b : ℚ) : (F64.fin a).sub (.fin b) = ofRat (a - b) := by
  rw [sub_eq_add_neg]; rfl

theorem abs_half_le (x : ℚ) (h : |x| ≤ 1 / 2) (w : ℕ) (hw : w ≤ 128) :
    |x * 2 ^ (w : ℤ)| ≤ 2 ^ 1022 := by
  rw [abs_mul, zpow_natCast, abs_of_pos (by positivity : (0 : ℚ) < 2 ^ w)]
  have h1 : (2 : ℚ) ^ w ≤ 2 ^ 1022 := pow_le_1022 w (by omega)
  have h2 : (0 : ℚ) < 2 ^ w := by positivity
  generalize (2 : ℚ) ^ 1022 = A at *
  nlinarith [abs_nonneg x]

theorem round_abs_le {x : ℚ} {v : ℤ} {B : ℤ} (h : |x - v| ≤ 1 / 2) (hx : |x| ≤ B) : |v| ≤ B := by
  have h1 : |(v : ℚ)| < B + 1 := by
    have := abs_add_le ((v : ℚ) - x) x
    rw [sub_add_cancel, abs_sub_comm] at this
    linarith
  have h2 : |v| < B + 1 := by exact_mod_cast h1
  omega

theorem toSigned_int (w : ℕ) (v : ℤ) (hv : |v| ≤ 2 ^ (w - 1)) :
    F64.toSigned w (.fin v) = if v = 2 ^ (w - 1) then 2 ^ (w - 1) - 1 else v := by
  unfold F64.toSigned
  dsimp only
  rw [Int.floor_intCast, Int.ceil_intCast, ite_self]
  have := abs_le.1 hv
  generalize (2 : ℤ) ^ (w - 1) = A at *
  split_ifs <;> omega

/-- `from_torus` on a binary64 number: subtract the nearest integer, scale, round, saturate. -/
theorem fromTorus_spec (w : ℕ) (hw0 : 1 ≤ w) (hw : w ≤ 128) (q : ℚ) (hq : Rep q) :
    ∃ r v : ℤ, F64.round (.fin q) = .fin r ∧ |q - r| ≤ 1 / 2 ∧ (|q| < 1 / 2 → r = 0) ∧
      |(q - r) * 2 ^ w - v| ≤ 1 / 2 ∧ |v| ≤ 2 ^ (w - 1) ∧
      fromTorus w (.fin q) =
        BitVec.ofInt w (if v = 2 ^ (w - 1) then 2 ^ (w - 1) - 1 else v) := by
  obtain ⟨r, hr, hr1, hr2⟩ := round_fin q
  have hs := hq.sub_round r hr1 hr2
  obtain ⟨v, hv, hv1, -⟩ := round_fin ((q - r) * 2 ^ (w : ℤ))
  rw [zpow_natCast] at hv1
  have hpow : (2 : ℚ) ^ w = 2 * 2 ^ (w - 1) := by rw [← pow_succ']; congr 1; omega
  have hvb : |v| ≤ 2 ^ (w - 1) := by
    refine round_abs_le hv1 ?_
    push_cast
    rw [abs_mul, abs_of_pos (by positivity : (0 : ℚ) < 2 ^ w), hpow]
    have : (0 : ℚ) < 2 ^ (w - 1) := by positivity
    nlinarith
  refine ⟨r, v, hr, hr1, hr2, hv1, hvb, ?_⟩
  unfold fromTorus
  dsimp only
  have hone : |q - r| ≤ 2 ^ 1022 := hr1.trans
    ((by norm_num : (1 : ℚ) / 2 ≤ 1).trans (one_le_pow₀ (by norm_num)))
  rw [hr, fin_sub, ofRat_rep hs hone, powi2_eq w (by omega) (by omega)]
  have hm : (F64.fin (q - r)).mul (.fin (2 ^ (w : ℤ))) = .fin ((q - r) * 2 ^ (w : ℤ)) :=
    ofRat_rep (hs.mul_pow w) (abs_half_le _ hr1 w hw)
  rw [hm, hv, toSigned_int w v hvb]

/-- Converting an integer of `w` bits to a float: an integer at most `2^w`, off by at most half a
unit in the last place. -/
theorem rnd_nat (w : ℕ) (n : ℕ) (h : n < 2 ^ w) :
    ∃ N : ℕ, rnd n = N ∧ N ≤ 2 ^ w ∧ (w ≤ 53 → N = n) ∧ |(N : ℤ) - n| * 2 ^ 54 ≤ 2 ^ w := by
  have hpw : (0 : ℤ) < 2 ^ w := by positivity
  by_cases hs : n < 2 ^ 53
  · refine ⟨n, ?_, h.le, fun _ => rfl, by rw [sub_self, abs_zero, zero_mul]; exact hpw.le⟩
    have := rnd_int n (by rw [abs_of_nonneg (by omega)]; exact_mod_cast hs)
    simpa using this
  have hn : (0 : ℚ) < n := by
    have : 0 < n := lt_of_lt_of_le (by norm_num) (not_lt.1 hs)
    exact_mod_cast this
  have hu : 0 ≤ ulpExp n ∧ ulpExp n + 53 ≤ w := by
    have h1 : (53 : ℤ) ≤ Int.log 2 |(n : ℚ)| := by
      rw [abs_of_pos hn]
      rw [← Int.zpow_le_iff_le_log (R := ℚ) (b := 2) (by norm_num) hn]
      push_cast
      exact_mod_cast not_lt.1 hs
    have h2 : Int.log 2 |(n : ℚ)| < w := by
      rw [abs_of_pos hn]
      rw [← Int.lt_zpow_iff_log_lt (R := ℚ) (b := 2) (by norm_num) hn]
      push_cast
      rw [zpow_natCast]
      exact_mod_cast h
    unfold ulpExp
    rw [max_eq_left (by omega)]
    omega
  have hle : rnd n ≤ 2 ^ w := by
    have := rnd_le_of_rep (q := n) (rep_pow w (by omega)) (by rw [zpow_natCast]; exact_mod_cast h.le)
    rwa [zpow_natCast] at this
  have herr := abs_rnd_sub_le_ulp (n : ℚ)
  have h0 := rnd_nonneg hn.le
  obtain ⟨e, he⟩ : ∃ e : ℕ, ulpExp n = e := ⟨(ulpExp n).toNat, by omega⟩
  obtain ⟨N, hN⟩ : ∃ N : ℤ, rnd n = N :=
    ⟨rne ((n : ℚ) / 2 ^ ulpExp n) * 2 ^ e, by unfold rnd; rw [he, zpow_natCast]; push_cast; rfl⟩
  rw [hN] at hle h0 herr
  have hN0 : 0 ≤ N := by exact_mod_cast h0
  lift N to ℕ using hN0
  rw [Int.cast_natCast] at hN herr hle
  refine ⟨N, hN, by exact_mod_cast hle, ?_, ?_⟩
  · intro hw53
    exact absurd (h.trans_le (Nat.pow_le_pow_right (by norm_num) hw53)) hs
  · have h2 : |(N : ℚ) - n| * 2 ^ 54 ≤ 2 ^ w := by
      have h3 : (2 : ℚ) ^ ulpExp (n : ℚ) / 2 * 2 ^ 54 ≤ 2 ^ w := by
        rw [he, zpow_natCast]
        have h4 : (2 : ℚ) ^ (e + 53) ≤ 2 ^ w := pow_le_pow_right₀ (by norm_num) (by omega)
        rw [pow_add] at h4
        have : (2 : ℚ) ^ e / 2 * 2 ^ 54 = 2 ^ e * 2 ^ 53 := by ring
        rw [this]; exact h4
      calc |(N : ℚ) - n| * 2 ^ 54 ≤ (2 : ℚ) ^ ulpExp (n : ℚ) / 2 * 2 ^ 54 :=
            mul_le_mul_of_nonneg_right herr (by norm_num)
        _ ≤ 2 ^ w := h3
    exact_mod_cast h2

/-- `into_torus`: the converted integer divided by `2^w`. -/
theorem intoTorus_eq {w : ℕ} (hw : w ≤ 128) (x : BitVec w) :
    ∃ N : ℕ, intoTorus x = .fin ((N : ℚ) / 2 ^ w) ∧ Rep ((N : ℚ) / 2 ^ w) ∧ N ≤ 2 ^ w ∧
      (w ≤ 53 → N = x.toNat) ∧ |(N : ℤ) - x.toNat| * 2 ^ 54 ≤ 2 ^ w := by
  obtain ⟨N, h1, h2, h3, h4⟩ := rnd_nat w x.toNat x.isLt
  have hx : |(x.toNat : ℚ)| ≤ 2 ^ 1022 := by
    rw [abs_of_nonneg (Nat.cast_nonneg _)]
    have h5 : ((x.toNat : ℕ) : ℚ) ≤ 2 ^ w := by exact_mod_cast x.isLt.le
    exact h5.trans (pow_le_1022 w (by omega))
  have hp : (0 : ℚ) < 2 ^ w := by positivity
  have hrep : Rep ((N : ℚ) / 2 ^ w) := by
    have hr := rep_rnd (x.toNat : ℚ)
    rw [h1] at hr
    -- either a small integer, or an integer multiple of a nonnegative power of two
    obtain ⟨k, e, hk, he, hq⟩ := hr
    by_cases he' : -900 ≤ e
    · refine ⟨k, e - w, hk, by omega, ?_⟩
      rw [hq, zpow_sub₀ (by norm_num), zpow_natCast]; ring
    · -- the value is below one, hence zero
      have hz : N = 0 := by
        have h6 : (N : ℚ) < 1 := by
          rw [hq]
          have h7 : (k : ℚ) ≤ 2 ^ (53 : ℤ) := by
            have := (abs_le.1 hk).2
            rw [show (2 : ℚ) ^ (53 : ℤ) = 2 ^ 53 from rfl]; exact_mod_cast this
          calc (k : ℚ) * 2 ^ e ≤ 2 ^ (53 : ℤ) * 2 ^ e :=
                mul_le_mul_of_nonneg_right h7 (two_zpow_pos e).le
            _ = 2 ^ (53 + e) := (zpow_add₀ (by norm_num) _ _).symm
            _ < 2 ^ (0 : ℤ) := zpow_lt_zpow_right₀ (by norm_num) (by omega)
            _ = 1 := zpow_zero _
        have : N < 1 := by exact_mod_cast h6
        omega
      rw [hz]
      exact ⟨0, 0, by norm_num, by norm_num, by norm_num⟩
  refine ⟨N, ?_, hrep, h2, h3, h4⟩
  unfold intoTorus F64.ofNat
  rw [ofRat_fin _ hx, h1, powi2_eq _ (by omega) (by omega)]
  have e1 : (N : ℚ) * 2 ^ (-(w : ℤ)) = (N : ℚ) / 2 ^ w := by
    rw [zpow_neg, zpow_natCast, div_eq_mul_inv]
  have : (F64.fin (N : ℚ)).mul (.fin (2 ^ (-(w : ℤ)))) = ofRat ((N : ℚ) / 2 ^ w) := by
    rw [← e1]; rfl
  rw [this]
  apply ofRat_rep hrep
  have h8 : (N : ℚ) / 2 ^ w ≤ 1 := by
    rw [div_le_one hp]; exact_mod_cast h2
  have h9 : (0 : ℚ) ≤ (N : ℚ) / 2 ^ w := div_nonneg (Nat.cast_nonneg _) hp.le
  rw [abs_of_nonneg h9]
  exact h8.trans one_le_1022

end Verif.Encode
