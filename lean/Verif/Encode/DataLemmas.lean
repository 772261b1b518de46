import Verif.Encode.Data
import Verif.Encode.DataSpec
import Verif.Encode.Props
/- Lemmas for C111. -/
set_option exponentiation.threshold 2000
namespace Verif.Encode
open Verif.Float

theorem ofOption_ok {α : Type} {o : Option α} {a : α} (h : ofOption o = .ok a) : o = some a := by
  cases o with
  | none => cases h
  | some b => cases h; rfl

theorem one_number {w : ℕ} (hw : Width w) (m : Build) {B : ℕ} {r : Range} (hr : r.Fine w B) {x : ℚ} (h1 : r.min ≤ x)
    (h2 : x ≤ r.max) :
    ∃ e c, r.config.max.le r.config.min = false ∧ r.config.toCommons = some e ∧ e.outOfRange (.fin x) = false ∧
      e.encode w m (.fin x) = some c ∧
      ∀ n : BitVec w, |n.toInt| ≤ B → ∃ y, e.decode m (c + n) = some (.fin y) ∧ |y - x| ≤ r.tolerance w B := by
  have main := fun n hn => C54_noise_partial w hw m r.min r.max x r.p r.pad hr.p1 hr.p46 hr.pw hr.pad hr.max hr.min_le hr.max_le
    hr.width h1 h2 n hn
  have hB : ∀ n : ℤ, |n| ≤ B → (|(n : ℚ)| + 1) * 2 ^ r.pad + 2 ^ w / 2 ^ 49 < 2 ^ (w - r.p - 1) := by
    intro n hn
    have hq : |(n : ℚ)| ≤ B := by
      rw [← Int.cast_abs]; exact_mod_cast hn
    refine lt_of_le_of_lt ?_ hr.noise
    have : (0 : ℚ) < 2 ^ r.pad := by positivity
    nlinarith
  obtain ⟨e, c, -, k1, k2, -, -⟩ := main 0 (hB 0 (by simp))
  have k1' := k1
  have k2' := k2
  unfold createEncoderMinMax at k1'
  have hcfg : r.config = ⟨.fin r.min, .fin r.max, r.p, r.pad⟩ := rfl
  dsimp only at k1'
  split at k1'
  · cases k1'
  · rename_i hle
    split at k1'
    · cases k1'
    · unfold encodeCleartext at k2'
      split at k2'
      · cases k2'
      · rename_i hout
        refine ⟨e, c, by simpa [hcfg] using hle, ofOption_ok k1', by simpa using hout, ofOption_ok k2', fun n hn => ?_⟩
        obtain ⟨e', c', y, j1, j2, j3, j4⟩ := main n.toInt (hB _ hn)
        rw [k1] at j1; cases j1
        rw [k2] at j2; cases j2
        rw [BitVec.ofInt_toInt] at j3
        refine ⟨y, ofOption_ok j3, j4.trans ?_⟩
        unfold Range.tolerance
        have hq : |(n.toInt : ℚ)| ≤ B := by
          rw [← Int.cast_abs]; exact_mod_cast hn
        have hs : 0 ≤ span r.min r.max r.p := by
          unfold span
          have hp : (1 : ℚ) < 2 ^ r.p := one_lt_pow₀ (by norm_num) (by have := hr.p1; omega)
          have hmm : 0 ≤ r.max - r.min := by linarith
          exact div_nonneg (mul_nonneg hmm (by positivity)) (by linarith)
        have : (|(n.toInt : ℚ)| + 1) * 2 ^ r.pad / 2 ^ w ≤ ((B : ℚ) + 1) * 2 ^ r.pad / 2 ^ w := by
          have : (0 : ℚ) < 2 ^ r.pad := by positivity
          gcongr
        have := mul_le_mul_of_nonneg_left this hs
        linarith

/-- The encoders and the plaintexts of a list of numbers, and what decoding gives when noise has been added. -/
theorem numbers {w : ℕ} (hw : Width w) (m : Build) (B : ℕ) : ∀ items : List (Range × ℚ),
    (∀ it ∈ items, it.1.Fine w B ∧ it.1.min ≤ it.2 ∧ it.2 ≤ it.1.max) →
    ∃ es cs, es.length = items.length ∧ cs.length = items.length ∧
      ((items.map fun it => it.1.config).any fun c => c.max.le c.min) = false ∧
      (items.map fun it => it.1.config).mapM MinMax.toCommons = some es ∧
      ((es.zip (items.map fun it => F64.fin it.2)).any fun p => p.1.outOfRange p.2) = false ∧
      ((es.zip (items.map fun it => F64.fin it.2)).mapM fun p => p.1.encode w m p.2) = some cs ∧
      ∀ noise : List (BitVec w), noise.length = items.length → (∀ n ∈ noise, |n.toInt| ≤ B) →
        ∃ ys : List ℚ, ((es.zip (List.zipWith (fun a b => a + b) cs noise)).mapM fun p => p.1.decode m p.2) =
            some (ys.map F64.fin) ∧
          List.Forall₂ (fun it y => |y - it.2| ≤ it.1.tolerance w B) items ys
  | [], _ => by
    refine ⟨[], [], rfl, rfl, rfl, rfl, rfl, rfl, fun noise _ _ => ⟨[], ?_, .nil⟩⟩
    simp
  | it :: items, h => by
    obtain ⟨h0, h1, h2⟩ := h it (by simp)
    obtain ⟨e, c, a1, a2, a3, a4, a5⟩ := one_number hw m h0 h1 h2
    obtain ⟨es, cs, b1, b2, b3, b4, b5, b6, b7⟩ := numbers hw m B items fun i hi => h i (by simp [hi])
    refine ⟨e :: es, c :: cs, by simp [b1], by simp [b2], ?_, ?_, ?_, ?_, ?_⟩
    · rw [List.map_cons, List.any_cons, a1, b3]; rfl
    · rw [List.map_cons, List.mapM_cons, a2, b4]; rfl
    · rw [List.map_cons, List.zip_cons_cons, List.any_cons, b5]
      simp [a3]
    · rw [List.map_cons, List.zip_cons_cons, List.mapM_cons, a4, b6]; rfl
    · intro noise hl hn
      cases noise with
      | nil => simp at hl
      | cons n noise =>
        obtain ⟨y, c1, c2⟩ := a5 n (hn n (by simp))
        obtain ⟨ys, d1, d2⟩ := b7 noise (by simpa using hl) fun k hk => hn k (by simp [hk])
        refine ⟨y :: ys, ?_, .cons c2 d2⟩
        rw [List.zipWith_cons_cons, List.zip_cons_cons, List.mapM_cons, c1, d1]; rfl

theorem isF64_of_rep {q : ℚ} (h : Rep q) (hq : |q| ≤ 2 ^ 900) : IsF64 q := by
  obtain ⟨k, e, hk, he, rfl⟩ := h
  by_cases h0 : k = 0
  · subst h0
    exact ⟨0, 0, by norm_num, by norm_num, by norm_num, by simp⟩
  have he2 : e ≤ 900 := by
    by_contra hc
    have h1 : (1 : ℚ) ≤ |(k : ℚ)| := by
      rw [← Int.cast_abs]
      exact_mod_cast Int.one_le_abs h0
    have h2 : (2 : ℚ) ^ (900 : ℤ) < 2 ^ e := zpow_lt_zpow_right₀ (by norm_num) (by omega)
    have e3 : (2 : ℚ) ^ (900 : ℤ) = 2 ^ 900 := zpow_natCast 2 900
    have h4 : (0 : ℚ) < 2 ^ e := by positivity
    rw [abs_mul, abs_of_pos h4] at hq
    rw [e3] at h2
    generalize (2 : ℚ) ^ 900 = A at *
    nlinarith
  by_cases hlt : |k| < 2 ^ 53
  · exact ⟨k, e, hlt, he, by omega, rfl⟩
  · have hk2 : |k| = 2 ^ 53 := le_antisymm hk (not_lt.1 hlt)
    have e2 : (2 : ℚ) ^ (e + 1) = 2 ^ e * 2 := zpow_add_one₀ (by norm_num) e
    rcases abs_choice k with h | h
    · exact ⟨2 ^ 52, e + 1, by norm_num, by omega, by omega, by
        rw [show k = 2 ^ 53 by omega, e2]; push_cast; ring⟩
    · exact ⟨-2 ^ 52, e + 1, by norm_num, by omega, by omega, by
        rw [show k = -2 ^ 53 by omega, e2]; push_cast; ring⟩

theorem err_rel {q : ℚ} (B : ℚ) (hq : |q| ≤ B) (hB : 1 / 2 ^ 1000 ≤ B) (hB2 : B ≤ 2 ^ 1000) :
    ∃ r, ofRat q = .fin r ∧ Rep r ∧ |r - q| ≤ B / 2 ^ 52 := by
  refine ⟨rnd q, ofRat_fin q ?_, rep_rnd q, rnd_err_rel q B hq hB⟩
  have : (2 : ℚ) ^ 1000 ≤ 2 ^ 1022 := pow_le_pow_right₀ (by norm_num) (by norm_num)
  linarith

end Verif.Encode
