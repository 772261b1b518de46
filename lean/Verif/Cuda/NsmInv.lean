import Verif.Cuda.NsmFwd
/-
The inverse Fourier transform of the GPU is accurate.
-/
namespace Verif.Cuda.Nsm
open Verif.Float Verif.Fft Finset

theorem inv_arith (g S e tiny x s d : ℝ) (hg0 : 0 ≤ g) (hg : g ≤ 1 / 10000) (hS : 0 ≤ S) (ht : 0 ≤ tiny) (hx : 1 ≤ x)
    (hs : s ≤ 12) (he : e ≤ (2 * s + 1) * g * S + 2 * (x * tiny)) (hd : d ≤ g * (S + e) + tiny) :
    d + e ≤ (2 * (s + 1) + 1) * g * S + 4 * x * tiny := by
  have hgS : 0 ≤ g * S := mul_nonneg hg0 hS
  have hxt : 0 ≤ x * tiny := mul_nonneg (by linarith) ht
  have h1 : g * e ≤ g * ((2 * s + 1) * g * S + 2 * (x * tiny)) := mul_le_mul_of_nonneg_left he hg0
  have h2 : (2 * s + 1) * g ≤ 25 * (1 / 10000) := by nlinarith
  have h3 : (2 * s + 1) * g * (g * S) ≤ 25 * (1 / 10000) * (g * S) := mul_le_mul_of_nonneg_right h2 hgS
  have h4 : g * (x * tiny) ≤ 1 / 10000 * (x * tiny) := mul_le_mul_of_nonneg_right hg hxt
  have h5 : 1 * tiny ≤ x * tiny := mul_le_mul_of_nonneg_right hx ht
  nlinarith

/-- The sum of the moduli of a block of `b` elements. -/
noncomputable def blockSum (c : Nat → ℝ) (b j : Nat) : ℝ := ∑ i ∈ range b, c (b * j + i)

theorem blockSum_two (c : Nat → ℝ) (b q : Nat) : blockSum c (2 * b) q = blockSum c b (2 * q) + blockSum c b (2 * q + 1) := by
  rw [blockSum, blockSum, blockSum, two_mul b, sum_range_add]
  congr 1
  · refine sum_congr rfl fun i _ => ?_
    congr 1; ring
  · refine sum_congr rfl fun i _ => ?_
    congr 1; ring

theorem blockSum_nonneg (c : Nat → ℝ) (hc : ∀ p, 0 ≤ c p) (b j : Nat) : 0 ≤ blockSum c b j := sum_nonneg fun _ _ => hc _

/-- What is known after `s` levels. -/
structure InvStage (c : Nat → ℝ) (b m : Nat) (s : ℝ) (x : ℝ) (A' : Nat → C64) (A : Nat → ℂ) : Prop where
  fin : ∀ j < m, ∀ r < b, (A' (b * j + r)).Finite
  norm : ∀ j < m, ∀ r < b, ‖A (b * j + r)‖ ≤ blockSum c b j
  err : ∀ j < m, ∀ r < b, ‖(A' (b * j + r)).val - A (b * j + r)‖ ≤ (2 * s + 1) * gam * blockSum c b j + x * tiny

theorem InvStage.step {c : Nat → ℝ} {b m : Nat} {s x : ℝ} {A' : Nat → C64} {A : Nat → ℂ}
    (h : InvStage c b (2 * m) s x A' A) (hc : ∀ p, 0 ≤ c p) (hcb : ∀ j, blockSum c b j ≤ 2 ^ 250) (hs : s ≤ 12)
    (hx1 : 1 ≤ x) (hx2 : x ≤ 2 ^ 100) (F : Nat → Nat → C64 → C64 → C64 × C64) (E : Nat → Nat → ℂ → ℂ → ℂ × ℂ) (W : Nat → ℂ)
    (hW : ∀ q, ‖W q‖ = 1) (hE : ∀ tid q a b, E tid q a b = (a + b, (a - b) * W q))
    (hF : ∀ tid, ∀ q < m, ButterflyOk (F tid q) (E tid q)) :
    InvStage c (2 * b) m (s + 1) (4 * x) (level b F A') (level b E A) := by
  have hu := u53_pos
  have hu1 := u53_le
  have ht := tiny_pos
  have htu := tiny_le_u
  have hg0 := gam_pos
  have hg : gam ≤ 1 / 10000 := by rw [gam_eq]; linarith
  -- a butterfly
  have key : ∀ q < m, ∀ r < b,
      (Close (level b F A' (2 * b * q + r)) (level b E (fun p => (A' p).val) (2 * b * q + r))
          (gam * (‖(A' (2 * b * q + r)).val‖ + ‖(A' (2 * b * q + r + b)).val‖) + tiny) ∧
        Close (level b F A' (2 * b * q + r + b)) (level b E (fun p => (A' p).val) (2 * b * q + r + b))
          (gam * (‖(A' (2 * b * q + r)).val‖ + ‖(A' (2 * b * q + r + b)).val‖) + tiny)) ∧
      ‖A (2 * b * q + r)‖ + ‖A (2 * b * q + r + b)‖ ≤ blockSum c (2 * b) q ∧
      ‖(A' (2 * b * q + r)).val - A (2 * b * q + r)‖ + ‖(A' (2 * b * q + r + b)).val - A (2 * b * q + r + b)‖ ≤
        (2 * s + 1) * gam * blockSum c (2 * b) q + 2 * (x * tiny) := by
    intro q hq r hr
    have e0 : 2 * b * q + r = b * (2 * q) + r := by ring
    have e1 : 2 * b * q + r + b = b * (2 * q + 1) + r := by ring
    have n0 := h.norm (2 * q) (by omega) r hr
    have n1 := h.norm (2 * q + 1) (by omega) r hr
    have d0 := h.err (2 * q) (by omega) r hr
    have d1 := h.err (2 * q + 1) (by omega) r hr
    have f0 := h.fin (2 * q) (by omega) r hr
    have f1 := h.fin (2 * q + 1) (by omega) r hr
    rw [← e0] at n0 d0 f0
    rw [← e1] at n1 d1 f1
    have big : ∀ (v : ℂ) (a : ℂ) (j : Nat), ‖a‖ ≤ blockSum c b j → ‖v - a‖ ≤ (2 * s + 1) * gam * blockSum c b j + x * tiny →
        ‖v‖ ≤ 2 ^ 300 := by
      intro v a j h1 h2
      have h3 := norm_add_le (v - a) a
      rw [sub_add_cancel] at h3
      have h4 := hcb j
      have h5 := blockSum_nonneg c hc b j
      have h6 : (2 * s + 1) * gam ≤ 1 := by nlinarith
      have h7 : (2 * s + 1) * gam * blockSum c b j ≤ 1 * blockSum c b j := mul_le_mul_of_nonneg_right h6 h5
      have h8 : x * tiny ≤ 2 ^ 100 * 1 := mul_le_mul hx2 (by linarith) ht.le (by positivity)
      have h9 : (2 : ℝ) ^ 100 * 1 ≤ 2 ^ 250 := by rw [mul_one]; exact pow_mono (by norm_num)
      have h10 : (4 : ℝ) * 2 ^ 250 ≤ 2 ^ 300 := by
        rw [show (4 : ℝ) = 2 ^ 2 by norm_num, ← pow_add]; exact pow_mono (by norm_num)
      generalize (2 : ℝ) ^ 300 = P at *
      generalize (2 : ℝ) ^ 250 = P' at *
      generalize (2 : ℝ) ^ 100 = P'' at *
      linarith
    have b0 := big _ _ _ n0 d0
    have b1 := big _ _ _ n1 d1
    have hB := hF (q * b + r) q hq _ _ f0 f1 b0 b1
    refine ⟨⟨?_, ?_⟩, ?_, ?_⟩
    · rw [level_low _ _ _ _ hr, level_low _ _ _ _ hr]; exact hB.1
    · rw [level_high _ _ _ _ hr, level_high _ _ _ _ hr]; exact hB.2
    · rw [blockSum_two]; linarith
    · rw [blockSum_two]; linarith
  -- its two results
  have out : ∀ (S : ℝ) (X : C64) (Ev V a b a' b' : ℂ), 0 ≤ S → Close X Ev (gam * (‖a'‖ + ‖b'‖) + tiny) →
      ‖Ev - V‖ ≤ ‖a' - a‖ + ‖b' - b‖ → ‖a‖ + ‖b‖ ≤ S → ‖a' - a‖ + ‖b' - b‖ ≤ (2 * s + 1) * gam * S + 2 * (x * tiny) →
      ‖X.val - V‖ ≤ (2 * (s + 1) + 1) * gam * S + 4 * x * tiny := by
    intro S X Ev V a b a' b' hS h1 h2 h3 h4
    have h5 := norm_add_le (X.val - Ev) (Ev - V)
    rw [sub_add_sub_cancel] at h5
    have h6 := norm_add_le (a' - a) a
    have h7 := norm_add_le (b' - b) b
    rw [sub_add_cancel] at h6 h7
    have h8 : gam * (‖a'‖ + ‖b'‖) + tiny ≤ gam * (S + (‖a' - a‖ + ‖b' - b‖)) + tiny := by
      have := mul_le_mul_of_nonneg_left (show ‖a'‖ + ‖b'‖ ≤ S + (‖a' - a‖ + ‖b' - b‖) by linarith) hg0.le
      linarith
    have := inv_arith gam S (‖a' - a‖ + ‖b' - b‖) tiny x s _ hg0.le hg hS ht.le hx1 hs h4 h8
    linarith [h1.2]
  have dist : ∀ q (a b a' b' : ℂ), ‖(a' + b') - (a + b)‖ ≤ ‖a' - a‖ + ‖b' - b‖ ∧
      ‖(a' - b') * W q - (a - b) * W q‖ ≤ ‖a' - a‖ + ‖b' - b‖ := by
    intro q a b a' b'
    constructor
    · rw [show a' + b' - (a + b) = (a' - a) + (b' - b) by ring]; exact norm_add_le _ _
    · rw [show (a' - b') * W q - (a - b) * W q = ((a' - a) - (b' - b)) * W q by ring, norm_mul, hW, mul_one]
      exact norm_sub_le _ _
  have split : ∀ r < 2 * b, ∃ r' < b, r = r' ∨ r = r' + b := by
    intro r hr
    by_cases hb : r < b
    · exact ⟨r, hb, Or.inl rfl⟩
    · exact ⟨r - b, by omega, Or.inr (by omega)⟩
  refine ⟨?_, ?_, ?_⟩ <;> intro q hq r hr <;> obtain ⟨r', hr', rfl | rfl⟩ := split r hr <;>
    obtain ⟨⟨c0, c1⟩, k1, k2⟩ := key q hq _ hr'
  · exact c0.1.finite
  · rw [← Nat.add_assoc]; exact c1.1.finite
  · rw [level_low _ _ _ _ hr', hE]
    exact (norm_add_le _ _).trans k1
  · rw [← Nat.add_assoc, level_high _ _ _ _ hr', hE]
    dsimp only
    rw [norm_mul, hW, mul_one]
    exact (norm_sub_le _ _).trans k1
  · refine out _ _ _ _ _ _ _ _ (blockSum_nonneg c hc _ _) c0 ?_ k1 k2
    rw [level_low _ _ _ _ hr', level_low _ _ _ _ hr', hE, hE]
    exact (dist q _ _ _ _).1
  · rw [← Nat.add_assoc]
    refine out _ _ _ _ _ _ _ _ (blockSum_nonneg c hc _ _) c1 ?_ k1 k2
    rw [level_high _ _ _ _ hr', level_high _ _ _ _ hr', hE, hE]
    exact (dist q _ _ _ _).2

/-- The inverse transform in binary64. -/
theorem inverse_close (ch : Contract) (K : Nat) (hK : K ≤ 12) (A' : Nat → C64)
    (hA : ∀ p < 2 ^ K, (A' p).Finite ∧ ‖(A' p).val‖ ≤ 2 ^ 200) (j : Nat) (hj : j < 2 ^ K) :
    (inverse (floatOps ch) twiddle (2 ^ K) A' j).Finite ∧
    ‖(inverse (floatOps ch) twiddle (2 ^ K) A' j).val - inverse (cOps (2 ^ K)) rootW (2 ^ K) (fun p => (A' p).val) j‖ ≤
      25 * gam * ((∑ p ∈ range (2 ^ K), ‖(A' p).val‖) / (2 ^ K : ℕ)) + 2 ^ 24 * tiny := by
  set n := 2 ^ K with hn
  have hn0 : (1 : ℝ) ≤ (n : ℝ) := by
    have : 1 ≤ n := Nat.one_le_two_pow
    exact_mod_cast this
  have hn12 : n ≤ 4096 := by rw [hn]; exact Nat.pow_le_pow_right (by norm_num) hK
  let c : Nat → ℝ := fun p => if p < n then ‖(A' p).val‖ / n else 0
  have hc0 : ∀ p, 0 ≤ c p := by
    intro p
    simp only [c]
    split
    · positivity
    · exact le_rfl
  have hc1 : ∀ p, c p ≤ 2 ^ 200 := by
    intro p
    simp only [c]
    split
    · next h =>
      refine (div_le_self (norm_nonneg _) hn0).trans (hA p h).2
    · positivity
  have hcb : ∀ b ≤ 4096, ∀ j, blockSum c b j ≤ 2 ^ 250 := by
    intro b hb j
    have h1 : blockSum c b j ≤ ∑ _i ∈ range b, (2 : ℝ) ^ 200 := sum_le_sum fun i _ => hc1 _
    rw [sum_const, card_range, nsmul_eq_mul] at h1
    refine h1.trans ?_
    have h2 : (b : ℝ) ≤ 2 ^ 12 := by
      have : b ≤ 2 ^ 12 := by simpa using hb
      exact_mod_cast this
    calc (b : ℝ) * 2 ^ 200 ≤ 2 ^ 12 * 2 ^ 200 := mul_le_mul_of_nonneg_right h2 (by positivity)
      _ = 2 ^ 212 := by rw [← pow_add]
      _ ≤ 2 ^ 250 := pow_mono (by norm_num)
  have start : InvStage c 1 (2 ^ K) (0 : ℕ) (4 ^ 0) (fun p => (floatOps ch).scale n p (A' p))
      (fun p => (cOps n).scale n p (A' p).val) := by
    have each : ∀ j < n, Close ((floatOps ch).scale n j (A' j)) ((cOps n).scale n j (A' j).val) (gam * (‖(A' j).val‖ / (n : ℕ)) + tiny) :=
      fun j hj => by
        have := scale_ok ch K j (by omega) (A' j) (hA j hj).1 ((hA j hj).2.trans (pow_mono (by norm_num)))
        rw [← hn] at this
        exact this
    have one : ∀ j < n, blockSum c 1 j = ‖(A' j).val‖ / n := by
      intro j hj
      rw [blockSum, sum_range_one, Nat.one_mul, Nat.add_zero]
      simp only [c, if_pos hj]
    refine ⟨?_, ?_, ?_⟩ <;> intro j hj r hr <;> obtain rfl : r = 0 := by omega
    all_goals rw [← hn] at hj; rw [Nat.one_mul, Nat.add_zero]
    · exact (each j hj).1.finite
    · rw [one j hj, cOps_eq]
      show ‖(A' j).val * (n : ℂ)⁻¹‖ ≤ _
      rw [norm_mul, norm_inv, Complex.norm_natCast, div_eq_mul_inv]
    · rw [one j hj]
      refine (each j hj).2.trans (le_of_eq ?_)
      push_cast; ring
  have all : ∀ s ≤ K, InvStage c (2 ^ s) (2 ^ (K - s)) (s : ℕ) (4 ^ s)
      ((List.range s).foldl (fun A s => level (2 ^ s * 1) (fun tid q => (floatOps ch).inv (2 ^ (K - 1 - s)) tid
        (twiddle (q + 2 ^ (K - 1 - s)))) A) (fun p => (floatOps ch).scale n p (A' p)))
      ((List.range s).foldl (fun A s => level (2 ^ s * 1) (fun tid q => (cOps n).inv (2 ^ (K - 1 - s)) tid
        (rootW (q + 2 ^ (K - 1 - s)))) A) (fun p => (cOps n).scale n p (A' p).val)) := by
    intro s
    induction s with
    | zero => intro _; exact start
    | succ s ih =>
      intro hs
      rw [foldl_range_succ, foldl_range_succ]
      have h1 := ih (by omega)
      rw [show 2 ^ (K - s) = 2 * 2 ^ (K - (s + 1)) by rw [← Nat.pow_succ']; congr 1; omega] at h1
      have h2 := h1.step hc0 (hcb _ (by
          calc 2 ^ s ≤ 2 ^ 12 := Nat.pow_le_pow_right (by norm_num) (by omega)
            _ = 4096 := by norm_num)) (by exact_mod_cast (show s ≤ 12 by omega)) (one_le_pow₀ (by norm_num)) (by
          rw [show (4 : ℝ) = 2 ^ 2 by norm_num, ← pow_mul]; exact pow_mono (by omega))
        (fun tid q => (floatOps ch).inv (2 ^ (K - 1 - s)) tid (twiddle (q + 2 ^ (K - 1 - s))))
        (fun tid q => (cOps n).inv (2 ^ (K - 1 - s)) tid (rootW (q + 2 ^ (K - 1 - s))))
        (fun q => (starRingEnd ℂ) (rootW (q + 2 ^ (K - 1 - s)))) (fun q => by rw [Complex.norm_conj, rootW_norm])
        (fun tid q a b => by rw [cOps_eq]; rfl) (fun tid q hq => inv_ok ch _ _ _ _ (by
          have := Nat.two_pow_pos (K - 1 - s); omega) (by
          have h3 : 2 ^ (K - 1 - s) * 2 ≤ 2 ^ 12 := by
            rw [← Nat.pow_succ]; exact Nat.pow_le_pow_right (by omega) (by omega)
          rw [show K - (s + 1) = K - 1 - s by omega] at hq
          omega))
      rw [← Nat.pow_succ', ← pow_succ'] at h2
      rw [Nat.mul_one]
      push_cast
      exact h2
  have h := all K le_rfl
  have ei : ∀ {V : Type} (ops : Ops V) (tw : Nat → V) (A : Nat → V), inverse ops tw n A =
      (List.range K).foldl (fun A s => level (2 ^ s * 1) (fun tid q => ops.inv (2 ^ (K - 1 - s)) tid
        (tw (q + 2 ^ (K - 1 - s)))) A) (fun p => ops.scale n p (A p)) := by
    intro V ops tw A
    rw [inverse, hn, invLevels_pow, List.foldl_map]
  rw [ei, ei]
  have f := h.fin 0 (by simp) j hj
  have e := h.err 0 (by simp) j hj
  rw [Nat.mul_zero, Nat.zero_add] at f e
  refine ⟨f, e.trans ?_⟩
  have hbs : blockSum c (2 ^ K) 0 = (∑ p ∈ range n, ‖(A' p).val‖) / n := by
    rw [blockSum, ← hn, sum_div]
    refine sum_congr rfl fun i hi => ?_
    simp only [Nat.mul_zero, Nat.zero_add, c, if_pos (mem_range.1 hi)]
  rw [hbs]
  have hS : 0 ≤ (∑ p ∈ range n, ‖(A' p).val‖) / (n : ℝ) := div_nonneg (sum_nonneg fun _ _ => norm_nonneg _) (by linarith)
  have hk : (K : ℝ) ≤ 12 := by exact_mod_cast hK
  have h1 : (2 * (K : ℝ) + 1) * (gam * ((∑ p ∈ range n, ‖(A' p).val‖) / (n : ℝ))) ≤
      25 * (gam * ((∑ p ∈ range n, ‖(A' p).val‖) / (n : ℝ))) :=
    mul_le_mul_of_nonneg_right (by linarith) (mul_nonneg gam_pos.le hS)
  have h2 : (4 : ℝ) ^ K * tiny ≤ 2 ^ 24 * tiny := by
    refine mul_le_mul_of_nonneg_right ?_ tiny_pos.le
    rw [show (4 : ℝ) = 2 ^ 2 by norm_num, ← pow_mul]; exact pow_mono (by omega)
  linarith

end Verif.Cuda.Nsm
