import Verif.Random.FailSpec
import Verif.Random.GaussLemmas
import Verif.Random.Odd
import Verif.Random.CountWords
/-
At least three quarters of the pairs of words are accepted by the gaussian sampler.
-/
namespace Verif.Random.Gauss
open Verif.Float Verif.Encode

theorem unit_val (x : BitVec 64) : unit x = .fin (rnd (x.toInt : ℚ) * 2 ^ (-63 : ℤ)) ∧
    |rnd (x.toInt : ℚ) * 2 ^ (-63 : ℤ)| ≤ 1 := by
  have hx : |(x.toInt : ℚ)| ≤ 2 ^ 63 := by
    have h1 := x.le_toInt
    have h2 := x.toInt_lt
    have : |x.toInt| ≤ 2 ^ 63 := by rw [abs_le]; norm_num at h1 h2 ⊢; omega
    exact_mod_cast this
  have hr : |rnd (x.toInt : ℚ)| ≤ 2 ^ 63 := by
    have hb : Rep ((2 : ℚ) ^ 63) := by
      have := rep_pow 63 (by norm_num)
      exact_mod_cast this
    rw [abs_le] at hx ⊢
    exact ⟨le_rnd_of_rep hb.neg hx.1, rnd_le_of_rep hb hx.2⟩
  have hm : |rnd (x.toInt : ℚ) * 2 ^ (-63 : ℤ)| ≤ 1 := by
    rw [abs_mul, abs_of_pos (two_zpow_pos _)]
    calc |rnd (x.toInt : ℚ)| * 2 ^ (-63 : ℤ) ≤ 2 ^ 63 * 2 ^ (-63 : ℤ) :=
          mul_le_mul_of_nonneg_right hr (two_zpow_pos _).le
      _ = 1 := by norm_num
  have he : unit x = (F64.fin (rnd (x.toInt : ℚ))).mul (.fin (2 ^ (-63 : ℤ))) := by
    unfold unit
    rw [ofRat_fin _ (hx.trans (pow_le_1022 63 (by norm_num))), show (-64 + 1 : ℤ) = -63 from rfl,
      powi2_eq _ (by norm_num) (by norm_num)]
  refine ⟨?_, hm⟩
  rw [he]
  show ofRat _ = _
  by_cases h0 : x.toInt = 0
  · rw [h0, Int.cast_zero, rnd_zero, zero_mul, ofRat_rep rep_zero (by rw [abs_zero]; exact pow_nonneg (by norm_num) _)]
  · exact ofRat_rep (Rep.scale (rep_rnd _) (one_le_rnd_int h0)) (hm.trans one_le_1022)

/-- A coordinate below `a / 256`. -/
theorem unit_box (x : BitVec 64) (a : ℕ) (ha : a ≤ 256) (hx : |x.toInt| ≤ a * 2 ^ 55) :
    ∃ U : ℚ, unit x = .fin U ∧ |U| ≤ 1 ∧ |U| ≤ a / 256 ∧ (U = 0 ∨ 1 / 2 ^ 63 ≤ |U|) ∧ (x.toInt ≠ 0 → U ≠ 0) := by
  obtain ⟨hv, h1⟩ := unit_val x
  refine ⟨_, hv, h1, ?_, ?_, ?_⟩
  · have hrep : Rep ((a : ℚ) * 2 ^ 55) :=
      ⟨a, 55, by rw [abs_of_nonneg (by positivity)]; exact_mod_cast ha.trans (by norm_num), by norm_num, by norm_cast⟩
    have hxq : |(x.toInt : ℚ)| ≤ a * 2 ^ 55 := by exact_mod_cast hx
    have hr : |rnd (x.toInt : ℚ)| ≤ a * 2 ^ 55 := by
      rw [abs_le] at hxq ⊢
      exact ⟨le_rnd_of_rep hrep.neg hxq.1, rnd_le_of_rep hrep hxq.2⟩
    rw [abs_mul, abs_of_pos (two_zpow_pos _)]
    calc |rnd (x.toInt : ℚ)| * 2 ^ (-63 : ℤ) ≤ a * 2 ^ 55 * 2 ^ (-63 : ℤ) :=
          mul_le_mul_of_nonneg_right hr (two_zpow_pos _).le
      _ = a / 256 := by norm_num; ring
  · by_cases h0 : x.toInt = 0
    · left; rw [h0, Int.cast_zero, rnd_zero, zero_mul]
    · right
      have h1 := one_le_rnd_int h0
      rw [abs_mul, abs_of_pos (two_zpow_pos _)]
      calc (1 : ℚ) / 2 ^ 63 = 1 * 2 ^ (-63 : ℤ) := by norm_num
        _ ≤ _ := mul_le_mul_of_nonneg_right h1 (two_zpow_pos _).le
  · intro h0 hz
    have h1 := one_le_rnd_int h0
    rcases mul_eq_zero.1 hz with h | h
    · rw [h] at h1; norm_num at h1
    · exact absurd h (two_zpow_pos _).ne'

/-- The points of a rectangle inside the disc are accepted, except the centre. -/
theorem accept_of_box (x y : BitVec 64) (a b : ℕ) (hab : a ^ 2 + b ^ 2 < 65536) (hx : |x.toInt| ≤ a * 2 ^ 55)
    (hy : |y.toInt| ≤ b * 2 ^ 55) (h0 : x.toInt ≠ 0 ∨ y.toInt ≠ 0) : accept x y = true := by
  have ha : a ≤ 256 := by nlinarith
  have hb : b ≤ 256 := by nlinarith
  obtain ⟨U, hU, U1, U2, U3, U4⟩ := unit_box x a ha hx
  obtain ⟨V, hV, V1, V2, V3, V4⟩ := unit_box y b hb hy
  have sq1 : ∀ (Z : ℚ) (c : ℕ), c ≤ 256 → |Z| ≤ 1 → |Z| ≤ c / 256 → 0 ≤ rnd (Z * Z) ∧ rnd (Z * Z) ≤ (c : ℚ) ^ 2 / 65536 ∧
      (F64.fin Z).mul (.fin Z) = .fin (rnd (Z * Z)) := by
    intro Z c hc hZ hZ2
    have hz : Z * Z ≤ 1 := by
      rw [← abs_mul_abs_self]
      calc |Z| * |Z| ≤ 1 * 1 := mul_le_mul hZ hZ (abs_nonneg _) (by norm_num)
        _ = 1 := by norm_num
    have hz2 : Z * Z ≤ (c : ℚ) ^ 2 / 65536 := by
      rw [← abs_mul_abs_self]
      calc |Z| * |Z| ≤ (c / 256) * (c / 256) := mul_le_mul hZ2 hZ2 (abs_nonneg _) (by positivity)
        _ = (c : ℚ) ^ 2 / 65536 := by ring
    have hrep : Rep ((c : ℚ) ^ 2 / 65536) := by
      refine ⟨(c : ℤ) ^ 2, -16, ?_, by norm_num, by push_cast; norm_num; ring⟩
      rw [abs_of_nonneg (by positivity)]
      have : c ^ 2 ≤ 256 ^ 2 := Nat.pow_le_pow_left hc 2
      exact_mod_cast this.trans (by norm_num)
    refine ⟨rnd_nonneg (mul_self_nonneg Z), rnd_le_of_rep hrep hz2, ?_⟩
    show ofRat _ = _
    rw [ofRat_fin]
    rw [abs_mul_self]; exact hz.trans one_le_1022
  obtain ⟨c1, c2, c3⟩ := sq1 U a ha U1 U2
  obtain ⟨d1, d2, d3⟩ := sq1 V b hb V1 V2
  have habq : (a : ℚ) ^ 2 + (b : ℚ) ^ 2 ≤ 65535 := by
    have : a ^ 2 + b ^ 2 ≤ 65535 := by omega
    exact_mod_cast this
  have hsum : rnd (U * U) + rnd (V * V) ≤ 65535 / 65536 := by
    have : (a : ℚ) ^ 2 / 65536 + (b : ℚ) ^ 2 / 65536 ≤ 65535 / 65536 := by
      rw [← add_div]; exact div_le_div_of_nonneg_right habq (by norm_num)
    linarith
  have hrad : radius (unit x) (unit y) = .fin (rnd (rnd (U * U) + rnd (V * V))) := by
    rw [hU, hV]; unfold radius; rw [c3, d3]
    show ofRat _ = _
    rw [ofRat_fin]
    rw [abs_of_nonneg (by linarith)]
    exact le_trans (by linarith) one_le_1022
  have hlt : rnd (rnd (U * U) + rnd (V * V)) < 1 := by
    have hrep : Rep ((65535 : ℚ) / 65536) := ⟨65535, -16, by norm_num, by norm_num, by norm_num⟩
    exact lt_of_le_of_lt (rnd_le_of_rep hrep hsum) (by norm_num)
  have hpos : 0 < rnd (rnd (U * U) + rnd (V * V)) := by
    have h126 : ∀ Z : ℚ, (Z = 0 ∨ 1 / 2 ^ 63 ≤ |Z|) → Z ≠ 0 → 0 < rnd (Z * Z) := fun Z h h' =>
      lt_of_lt_of_le (by norm_num) ((sq_rnd Z h).2 h')
    rcases h0 with h | h
    · exact lt_of_lt_of_le (h126 U U3 (U4 h)) (le_rnd_of_rep (rep_rnd _) (by linarith))
    · exact lt_of_lt_of_le (h126 V V3 (V4 h)) (le_rnd_of_rep (rep_rnd _) (by linarith))
  unfold accept
  rw [hrad]
  simp [F64.lt, hlt, hpos]

/-! ### Counting -/

/-- The half height of the column `k`, in 256ths. -/
def colHeight (k : Nat) : Nat := Nat.sqrt (65535 - 64 * (if k < 32 then 32 - k else k - 31) ^ 2)

theorem colHeight_sum : 12289 ≤ ∑ k ∈ Finset.range 64, colHeight k := by decide +kernel

theorem toInt_ofInt64 (X : ℤ) (h1 : -2 ^ 63 ≤ X) (h2 : X < 2 ^ 63) : (BitVec.ofInt 64 X).toInt = X := by
  rw [BitVec.toInt_ofInt]
  apply Int.bmod_eq_of_le <;> norm_num at * <;> omega

theorem col_bound (P k i : ℕ) (hP : P = 36028797018963968) (h1 : k < 64) (h2 : i < 8 * P) :
    |((k : ℤ) - 32) * (8 * P) + i| ≤ ((8 * (if k < 32 then 32 - k else k - 31) : ℕ) : ℤ) * P := by
  subst hP
  rw [abs_le]
  push_cast
  split <;> constructor <;> omega

theorem col_range (P k i : ℕ) (hP : P = 36028797018963968) (h1 : k < 64) (h2 : i < 8 * P) :
    -2 ^ 63 ≤ ((k : ℤ) - 32) * (8 * P) + i ∧ ((k : ℤ) - 32) * (8 * P) + i < 2 ^ 63 := by
  subst hP
  norm_num
  constructor <;> omega

theorem row_range (P c j : ℕ) (hP : P = 36028797018963968) (hc : c ≤ 255) (h : j < 2 * (c * P)) :
    -2 ^ 63 ≤ (j : ℤ) - c * P ∧ (j : ℤ) - c * P < 2 ^ 63 := by
  subst hP
  norm_num
  constructor <;> omega

theorem col_inj (P k k' i i' : ℕ) (hP : P = 36028797018963968) (h : i < 8 * P) (h' : i' < 8 * P)
    (e : ((k : ℤ) - 32) * (8 * P) + i = ((k' : ℤ) - 32) * (8 * P) + i') : k = k' := by
  subst hP
  push_cast at e
  omega

theorem sqrt_65535 : Nat.sqrt 65535 ≤ 255 := by
  have := Nat.sqrt_lt (m := 65535) (n := 256)
  omega

theorem accepted_ge_aux (n : ℕ) (f : BitVec 64 → BitVec 64 → Bool) (T : Finset (BitVec 64 × BitVec 64))
    (hf : ∀ (x y : BitVec 64) (a b : ℕ), a ^ 2 + b ^ 2 < 65536 → |x.toInt| ≤ a * 2 ^ 55 → |y.toInt| ≤ b * 2 ^ 55 →
      (x.toInt ≠ 0 ∨ y.toInt ≠ 0) → f x y = true) (hT : ∀ x y, f x y = true → (x, y) ∈ T)
    (hn : T.card = n) : 3 * 2 ^ 126 ≤ n := by
  classical
  obtain ⟨P, hP⟩ : ∃ P : ℕ, P = 36028797018963968 := ⟨_, rfl⟩
  let S : Finset (Σ _ : ℕ, ℕ × ℕ) := (Finset.range 64).sigma fun k => Finset.range (8 * P) ×ˢ Finset.range (2 * (colHeight k * P))
  let X : (Σ _ : ℕ, ℕ × ℕ) → ℤ := fun p => ((p.1 : ℤ) - 32) * (8 * P) + p.2.1
  let Y : (Σ _ : ℕ, ℕ × ℕ) → ℤ := fun p => (p.2.2 : ℤ) - colHeight p.1 * P
  let φ : (Σ _ : ℕ, ℕ × ℕ) → BitVec 64 × BitVec 64 := fun p => (BitVec.ofInt 64 (X p), BitVec.ofInt 64 (Y p))
  have hPpos : 0 < P := by rw [hP]; norm_num
  have hcard : S.card = 16 * P * P * ∑ k ∈ Finset.range 64, colHeight k := by
    rw [Finset.card_sigma]
    simp only [Finset.card_product, Finset.card_range]
    have : ∀ k, 8 * P * (2 * (colHeight k * P)) = 16 * P * P * colHeight k := fun k => by ring
    simp only [this]
    rw [← Finset.mul_sum]
  have hh : ∀ k, colHeight k ≤ 255 := fun k => by
    unfold colHeight
    exact (Nat.sqrt_le_sqrt (Nat.sub_le _ _)).trans sqrt_65535
  have facts : ∀ p ∈ S, p.1 < 64 ∧ p.2.1 < 8 * P ∧ p.2.2 < 2 * (colHeight p.1 * P) := by
    rintro ⟨k, i, j⟩ hp
    simpa [S] using hp
  have hX : ∀ p ∈ S, |X p| ≤ ((8 * (if p.1 < 32 then 32 - p.1 else p.1 - 31) : ℕ) : ℤ) * P := by
    rintro ⟨k, i, j⟩ hp
    obtain ⟨h1, h2, -⟩ := facts _ hp
    dsimp only at h1 h2
    exact col_bound P k i hP h1 h2
  have hXb : ∀ p ∈ S, -2 ^ 63 ≤ X p ∧ X p < 2 ^ 63 := by
    rintro ⟨k, i, j⟩ hp
    obtain ⟨h1, h2, -⟩ := facts _ hp
    dsimp only at h1 h2
    exact col_range P k i hP h1 h2
  have hY : ∀ p ∈ S, |Y p| ≤ (colHeight p.1 : ℤ) * P := by
    rintro ⟨k, i, j⟩ hp
    obtain ⟨-, -, h3⟩ := facts _ hp
    dsimp only at h3
    simp only [Y]
    rw [abs_le]
    have : (j : ℤ) < 2 * (colHeight k * P) := by exact_mod_cast h3
    constructor <;> linarith [Int.natCast_nonneg j]
  have hYb : ∀ p ∈ S, -2 ^ 63 ≤ Y p ∧ Y p < 2 ^ 63 := by
    rintro ⟨k, i, j⟩ hp
    obtain ⟨-, -, h3⟩ := facts _ hp
    dsimp only at h3
    exact row_range P _ j hP (hh k) h3
  have hinj : Set.InjOn φ (S : Set _) := by
    rintro ⟨k, i, j⟩ hp ⟨k', i', j'⟩ hp' he
    have hp := Finset.mem_coe.1 hp
    have hp' := Finset.mem_coe.1 hp'
    simp only [φ, Prod.mk.injEq] at he
    have e1 : X ⟨k, i, j⟩ = X ⟨k', i', j'⟩ := by
      rw [← toInt_ofInt64 _ (hXb _ hp).1 (hXb _ hp).2, he.1, toInt_ofInt64 _ (hXb _ hp').1 (hXb _ hp').2]
    have e2 : Y ⟨k, i, j⟩ = Y ⟨k', i', j'⟩ := by
      rw [← toInt_ofInt64 _ (hYb _ hp).1 (hYb _ hp).2, he.2, toInt_ofInt64 _ (hYb _ hp').1 (hYb _ hp').2]
    obtain ⟨h1, h2, -⟩ := facts _ hp
    obtain ⟨h1', h2', -⟩ := facts _ hp'
    dsimp only at h1 h2 h1' h2'
    simp only [X] at e1
    simp only [Y] at e2
    have hk : k = k' := col_inj P k k' i i' hP h2 h2' e1
    subst hk
    have hi : i = i' := by
      have : (i : ℤ) = i' := by linarith
      exact_mod_cast this
    have hj : j = j' := by
      have : (j : ℤ) = j' := by linarith
      exact_mod_cast this
    subst hi hj
    rfl
  have hsub : ∀ p ∈ S, φ p ∈ insert (0, 0) T := by
    intro p hp
    by_cases h0 : X p ≠ 0 ∨ Y p ≠ 0
    · refine Finset.mem_insert_of_mem (hT _ _ ?_)
      have tx := toInt_ofInt64 _ (hXb _ hp).1 (hXb _ hp).2
      have ty := toInt_ofInt64 _ (hYb _ hp).1 (hYb _ hp).2
      have hc : 1 ≤ colHeight p.1 := by
        obtain ⟨-, -, h3⟩ := facts p hp
        rcases Nat.eq_zero_or_pos (colHeight p.1) with h | h
        · rw [h] at h3; omega
        · exact h
      refine hf _ _ (8 * (if p.1 < 32 then 32 - p.1 else p.1 - 31)) (colHeight p.1) ?_ ?_ ?_ ?_
      · generalize hm : (if p.1 < 32 then 32 - p.1 else p.1 - 31) = m
        have hs : colHeight p.1 ^ 2 ≤ 65535 - 64 * m ^ 2 := by
          unfold colHeight
          rw [hm]
          exact Nat.sqrt_le' _
        have : 1 ≤ colHeight p.1 ^ 2 := Nat.one_le_pow _ _ hc
        have e : (8 * m) ^ 2 = 64 * m ^ 2 := by ring
        omega
      · show |(BitVec.ofInt 64 (X p)).toInt| ≤ _
        rw [tx]
        have := hX p hp
        rw [hP] at this
        exact this.trans (le_of_eq (by norm_num))
      · show |(BitVec.ofInt 64 (Y p)).toInt| ≤ _
        rw [ty]
        have := hY p hp
        rw [hP] at this
        exact this.trans (le_of_eq (by norm_num))
      · show (BitVec.ofInt 64 (X p)).toInt ≠ 0 ∨ (BitVec.ofInt 64 (Y p)).toInt ≠ 0
        rw [tx, ty]
        exact h0
    · push Not at h0
      refine Finset.mem_insert.2 (Or.inl ?_)
      show (BitVec.ofInt 64 (X p), BitVec.ofInt 64 (Y p)) = (0, 0)
      rw [h0.1, h0.2]
      rfl
  have h1 := Finset.card_le_card_of_injOn φ hsub hinj
  rw [hcard] at h1
  have h2 := Finset.card_insert_le (0, 0) T
  rw [hn] at h2
  generalize (insert (0, 0) T).card = c at h1 h2
  have h3 := Nat.mul_le_mul_left (16 * P * P) colHeight_sum
  generalize ∑ k ∈ Finset.range 64, colHeight k = t at h1 h3
  clear hn hsub hinj hYb hY hXb hX facts hh hcard
  have h4 : 16 * P * P * 12289 ≤ n + 1 := (h3.trans h1).trans h2
  rw [hP] at h4
  clear h1 h2 h3
  norm_num at h4 ⊢
  omega

theorem exists_finset {w : ℕ} (f : BitVec w → BitVec w → Bool) :
    ∃ T : Finset (BitVec w × BitVec w), T.card = pairsWith f true ∧ ∀ x y, f x y = true → (x, y) ∈ T :=
  ⟨Finset.univ.filter fun p : BitVec w × BitVec w => f p.1 p.2 = true, rfl,
    fun _ _ h => Finset.mem_filter.2 ⟨Finset.mem_univ _, h⟩⟩

theorem card_bitVec (w : ℕ) : Fintype.card (BitVec w) = 2 ^ w := by
  have := sum_bitVec w (fun _ => 1)
  rw [Finset.sum_const, Finset.sum_const] at this
  simp only [smul_eq_mul, mul_one, Finset.card_range] at this
  exact this

theorem card_pairs (w : ℕ) : (Finset.univ : Finset (BitVec w × BitVec w)).card = 2 ^ (w + w) := by
  rw [Finset.card_univ, Fintype.card_prod, card_bitVec, pow_add]

theorem card_split {A : Type} [Fintype A] (f : A → Bool) : (Finset.univ.filter fun p : A => f p = true).card +
    (Finset.univ.filter fun p : A => f p = false).card = (Finset.univ : Finset A).card := by
  have h := Finset.card_filter_add_card_filter_not (s := (Finset.univ : Finset A)) (fun p => f p = true)
  simp only [Bool.not_eq_true] at h
  exact h

theorem total_aux (w : ℕ) (f : BitVec w → BitVec w → Bool) :
    pairsWith f true + pairsWith f false = 2 ^ (w + w) := by
  rw [pairsWith, pairsWith, card_split (fun p : BitVec w × BitVec w => f p.1 p.2), card_pairs]

theorem pairsWith_le (f : BitVec 64 → BitVec 64 → Bool)
    (hf : ∀ (x y : BitVec 64) (a b : ℕ), a ^ 2 + b ^ 2 < 65536 → |x.toInt| ≤ a * 2 ^ 55 → |y.toInt| ≤ b * 2 ^ 55 →
      (x.toInt ≠ 0 ∨ y.toInt ≠ 0) → f x y = true) : pairsWith f false ≤ 2 ^ 126 ∧ pairsWith f true + pairsWith f false = 2 ^ 128 := by
  have h2 := total_aux 64 f
  obtain ⟨T, hc, hT⟩ := exists_finset f
  have h1 := accepted_ge_aux _ f T hf hT hc
  clear hc
  generalize pairsWith f true = a at *
  generalize pairsWith f false = r at *
  norm_num at h1 h2 ⊢
  omega

theorem refused_le : refused ≤ 2 ^ 126 := by
  rw [refused]
  exact (pairsWith_le accept accept_of_box).1

theorem accepted_add : pairsWith accept true + refused = 2 ^ 128 := by
  rw [refused]
  exact (pairsWith_le accept accept_of_box).2

end Verif.Random.Gauss
