import Verif.Cuda.NsmErr
/-
The direct Fourier transform of the GPU is accurate.
-/
namespace Verif.Cuda.Nsm
open Verif.Float Verif.Fft Finset

theorem sum_pairs {R : Type} [AddCommMonoid R] (t : Nat) (g : Nat → R) (m : Nat) :
    ∑ p ∈ range (m * (2 * t)), g p = ∑ q ∈ range m, ∑ r ∈ range t, (g (2 * t * q + r) + g (2 * t * q + r + t)) := by
  induction m with
  | zero => simp
  | succ m ih =>
    rw [Nat.succ_mul, sum_range_add, ih, sum_range_succ]
    congr 1
    rw [Nat.two_mul, sum_range_add, ← sum_add_distrib]
    refine sum_congr rfl fun r _ => ?_
    congr 1
    · congr 1; ring
    · congr 1; ring

theorem level_l2_le {m t : Nat} (G : Nat → Nat → ℂ → ℂ → ℂ × ℂ) (A : Nat → ℂ) (c : ℝ) (hc : 0 ≤ c)
    (hG : ∀ tid, ∀ q < m, ∀ a b, ‖(G tid q a b).1‖ ^ 2 + ‖(G tid q a b).2‖ ^ 2 ≤ c ^ 2 * (‖a‖ ^ 2 + ‖b‖ ^ 2)) :
    l2 (m * (2 * t)) (level t G A) ≤ c * l2 (m * (2 * t)) A := by
  rw [l2, l2]
  conv_rhs => rw [← Real.sqrt_sq hc, ← Real.sqrt_mul (by positivity)]
  apply Real.sqrt_le_sqrt
  rw [sum_pairs, sum_pairs, mul_sum]
  refine sum_le_sum fun q hq => ?_
  rw [mul_sum]
  refine sum_le_sum fun r hr => ?_
  rw [level_low _ _ _ _ (mem_range.1 hr), level_high _ _ _ _ (mem_range.1 hr)]
  exact hG _ q (mem_range.1 hq) _ _

/-- The two elements of a butterfly. -/
theorem level_pair {m t p : Nat} (hp : p < m * (2 * t)) : ∃ q r, q < m ∧ r < t ∧ (p = 2 * t * q + r ∨ p = 2 * t * q + r + t) := by
  have h2 : 0 < 2 * t := Nat.pos_of_ne_zero (by rintro h; simp [h] at hp)
  have hm := Nat.mod_lt p h2
  have hd := Nat.div_add_mod p (2 * t)
  refine ⟨p / (2 * t), if p % (2 * t) < t then p % (2 * t) else p % (2 * t) - t, ?_, ?_, ?_⟩
  · exact (Nat.div_lt_iff_lt_mul h2).2 hp
  · split <;> omega
  · split <;> omega

theorem pair_lt {m t q r : Nat} (hq : q < m) (hr : r < t) : 2 * t * q + r < m * (2 * t) ∧ 2 * t * q + r + t < m * (2 * t) := by
  have : 2 * t * (q + 1) ≤ 2 * t * m := Nat.mul_le_mul_left _ hq
  rw [Nat.mul_add, Nat.mul_one, Nat.mul_comm _ m] at this
  omega

variable {m t : Nat} (F : Nat → Nat → C64 → C64 → C64 × C64) (E : Nat → Nat → ℂ → ℂ → ℂ × ℂ) (A' : Nat → C64)

/-- A level, element by element. -/
theorem level_close (hF : ∀ tid, ∀ q < m, ButterflyOk (F tid q) (E tid q))
    (hA : ∀ p < m * (2 * t), (A' p).Finite ∧ ‖(A' p).val‖ ≤ 2 ^ 300) (p : Nat) (hp : p < m * (2 * t)) :
    Close (level t F A' p) (level t E (fun p => (A' p).val) p)
      (level t (fun _ _ a b => (gam * (a + b) + tiny, gam * (a + b) + tiny)) (fun p => ‖(A' p).val‖) p) := by
  obtain ⟨q, r, hq, hr, h | h⟩ := level_pair hp
  all_goals
    obtain ⟨l1, l2⟩ := pair_lt (t := t) hq hr
    obtain ⟨f1, b1⟩ := hA _ l1
    obtain ⟨f2, b2⟩ := hA _ l2
    have := hF (q * t + r) q hq _ _ f1 f2 b1 b2
    subst h
  · rw [level_low _ _ _ _ hr, level_low _ _ _ _ hr, level_low _ _ _ _ hr]; exact this.1
  · rw [level_high _ _ _ _ hr, level_high _ _ _ _ hr, level_high _ _ _ _ hr]; exact this.2

/-- The numbers do not overflow. -/
theorem level_bound (hF : ∀ tid, ∀ q < m, ButterflyOk (F tid q) (E tid q))
    (hE : ∀ tid, ∀ q < m, ∀ a b, ‖(E tid q a b).1‖ ≤ ‖a‖ + ‖b‖ ∧ ‖(E tid q a b).2‖ ≤ ‖a‖ + ‖b‖) (B : ℝ) (hB1 : 1 ≤ B) (hB2 : B ≤ 2 ^ 300)
    (hA : ∀ p < m * (2 * t), (A' p).Finite ∧ ‖(A' p).val‖ ≤ B) (p : Nat) (hp : p < m * (2 * t)) :
    (level t F A' p).Finite ∧ ‖(level t F A' p).val‖ ≤ 4 * B := by
  have hu := u53_pos
  have hu1 := u53_le
  have ht := tiny_le_u
  have hg : gam ≤ 1 / 10000 := by rw [gam_eq]; linarith
  have h := level_close F E A' hF (fun p hp => ⟨(hA p hp).1, (hA p hp).2.trans hB2⟩) p hp
  clear hB2
  refine ⟨h.1.finite, ?_⟩
  have hv := val_close h
  obtain ⟨q, r, hq, hr, e | e⟩ := level_pair hp
  all_goals
    obtain ⟨l1, l2⟩ := pair_lt (t := t) hq hr
    have b1 := (hA _ l1).2
    have b2 := (hA _ l2).2
    have hE := hE (q * t + r) q hq (A' (2 * t * q + r)).val (A' (2 * t * q + r + t)).val
    subst e
    have n1 := norm_nonneg (A' (2 * t * q + r)).val
    have n2 := norm_nonneg (A' (2 * t * q + r + t)).val
  · rw [level_low _ (fun p => (A' p).val) _ _ hr, level_low _ (fun p => ‖(A' p).val‖) _ _ hr] at hv
    have := hE.1
    dsimp only at hv
    nlinarith
  · rw [level_high _ (fun p => (A' p).val) _ _ hr, level_high _ (fun p => ‖(A' p).val‖) _ _ hr] at hv
    have := hE.2
    dsimp only at hv
    nlinarith

/-- The error of a level in norm. -/
theorem level_err (hF : ∀ tid, ∀ q < m, ButterflyOk (F tid q) (E tid q))
    (hE : ∀ tid, ∀ q < m, ∀ a b, ‖(E tid q a b).1‖ ^ 2 + ‖(E tid q a b).2‖ ^ 2 = 2 * (‖a‖ ^ 2 + ‖b‖ ^ 2))
    (hsub : ∀ tid q a b a' b', E tid q (a - a') (b - b') = E tid q a b - E tid q a' b')
    (hA : ∀ p < m * (2 * t), (A' p).Finite ∧ ‖(A' p).val‖ ≤ 2 ^ 300) (A : Nat → ℂ) (n : Nat) (hn : n = m * (2 * t)) :
    l2 n (level t E A) ≤ √2 * l2 n A ∧
    l2 n (fun p => (level t F A' p).val - level t E A p) ≤
      √2 * l2 n (fun p => (A' p).val - A p) + 2 * gam * l2 n (fun p => (A' p).val) + √n * tiny := by
  subst hn
  have iso : ∀ A, l2 (m * (2 * t)) (level t E A) ≤ √2 * l2 (m * (2 * t)) A := by
    intro A
    refine level_l2_le E A _ (Real.sqrt_nonneg _) fun tid q hq a b => ?_
    rw [hE tid q hq, Real.sq_sqrt (by norm_num)]
  refine ⟨iso A, ?_⟩
  have hlin : ∀ p, p < m * (2 * t) → (level t F A' p).val - level t E A p =
      ((level t F A' p).val - level t E (fun p => (A' p).val) p) + level t E (fun p => (A' p).val - A p) p := by
    intro p hp
    have : level t E (fun p => (A' p).val - A p) p = level t E (fun p => (A' p).val) p - level t E A p := by
      obtain ⟨q, r, hq, hr, e | e⟩ := level_pair hp
      · subst e
        rw [level_low _ _ _ _ hr, level_low _ _ _ _ hr, level_low _ _ _ _ hr, hsub]; rfl
      · subst e
        rw [level_high _ _ _ _ hr, level_high _ _ _ _ hr, level_high _ _ _ _ hr, hsub]; rfl
    rw [this]; ring
  rw [l2_congr hlin]
  refine (l2_add_le _ _ _).trans ?_
  have h1 := iso (fun p => (A' p).val - A p)
  have hg := gam_pos
  have ht := tiny_pos
  let D : Nat → ℂ := level t (fun _ _ a b => (((gam * (‖a‖ + ‖b‖) : ℝ) : ℂ), ((gam * (‖a‖ + ‖b‖) : ℝ) : ℂ))) (fun p => (A' p).val)
  have h2 : l2 (m * (2 * t)) D ≤ 2 * gam * l2 (m * (2 * t)) (fun p => (A' p).val) := by
    refine level_l2_le _ _ _ (by linarith) fun tid q hq a b => ?_
    dsimp only
    rw [Complex.norm_real, Real.norm_of_nonneg (by positivity)]
    nlinarith [sq_nonneg (gam * (‖a‖ - ‖b‖))]
  have h3 : l2 (m * (2 * t)) (fun p => (level t F A' p).val - level t E (fun p => (A' p).val) p) ≤
      l2 (m * (2 * t)) (fun p => D p + (tiny : ℂ)) := by
    apply l2_mono
    intro p hp
    refine (level_close F E A' hF hA p hp).2.trans (le_of_eq ?_)
    obtain ⟨q, r, hq, hr, e | e⟩ := level_pair hp
    · subst e
      simp only [D]
      rw [level_low _ _ _ _ hr, level_low _ _ _ _ hr, ← Complex.ofReal_add, Complex.norm_real, Real.norm_of_nonneg (by positivity)]
    · subst e
      simp only [D]
      rw [level_high _ _ _ _ hr, level_high _ _ _ _ hr, ← Complex.ofReal_add, Complex.norm_real, Real.norm_of_nonneg (by positivity)]
  have h4 := l2_add_le (m * (2 * t)) D (fun _ => (tiny : ℂ))
  have h5 : l2 (m * (2 * t)) (fun _ => (tiny : ℂ)) ≤ √((m * (2 * t) : ℕ) : ℝ) * tiny :=
    l2_le_of_le ht.le fun k _ => by rw [Complex.norm_real, Real.norm_of_nonneg ht.le]
  linarith

/-- The exact butterflies. -/
theorem fwd_isometry (W a b : ℂ) (hW : ‖W‖ = 1) :
    ‖a + W * b‖ ^ 2 + ‖a - W * b‖ ^ 2 = 2 * (‖a‖ ^ 2 + ‖b‖ ^ 2) := by
  have h := parallelogram_law_with_norm ℝ a (W * b)
  rw [norm_mul, hW, one_mul] at h
  linarith

theorem fwd_le (W a b : ℂ) (hW : ‖W‖ = 1) : ‖a + W * b‖ ≤ ‖a‖ + ‖b‖ ∧ ‖a - W * b‖ ≤ ‖a‖ + ‖b‖ := by
  have h1 := norm_add_le a (W * b)
  have h2 := norm_sub_le a (W * b)
  rw [norm_mul, hW, one_mul] at h1 h2
  exact ⟨h1, h2⟩

theorem fwd_arith (c x s L e τ g : ℝ) (hc : 1.4 ≤ c) (hx : 1 ≤ x) (hs : s ≤ 12) (hL : 0 ≤ L) (hτ : 0 ≤ τ)
    (hg0 : 0 ≤ g) (hg : g ≤ 1 / 10000) (he : e ≤ x * (2 * s * g * L + 2 * s * τ)) (l : ℝ) (hl : l ≤ x * L + e) :
    c * e + 2 * g * l + τ ≤ x * c * (2 * (s + 1) * g * L + 2 * (s + 1) * τ) := by
  have hxL : 0 ≤ x * L := mul_nonneg (by linarith) hL
  have hxτ : 0 ≤ x * τ := mul_nonneg (by linarith) hτ
  have hgxL : 0 ≤ g * (x * L) := mul_nonneg hg0 hxL
  have h1 : c * e ≤ c * (x * (2 * s * g * L + 2 * s * τ)) := mul_le_mul_of_nonneg_left he (by linarith)
  have h2 : 2 * g * l ≤ 2 * g * (x * L + e) := mul_le_mul_of_nonneg_left hl (by linarith)
  have h3 : g * e ≤ g * (x * (2 * s * g * L + 2 * s * τ)) := mul_le_mul_of_nonneg_left he hg0
  have h4 : g * (x * (2 * s * g * L + 2 * s * τ)) ≤ 0.01 * (g * (x * L)) + 0.01 * (x * τ) := by
    have a1 : s * g ≤ 12 * (1 / 10000) := mul_le_mul hs hg hg0 (by norm_num)
    have a2 : s * g * (g * (x * L)) ≤ 12 * (1 / 10000) * (g * (x * L)) := mul_le_mul_of_nonneg_right a1 hgxL
    have a3 : s * g * (x * τ) ≤ 12 * (1 / 10000) * (x * τ) := mul_le_mul_of_nonneg_right a1 hxτ
    nlinarith
  have h5 : τ ≤ x * τ := by nlinarith
  have h6 : 1.4 * (g * (x * L)) ≤ c * (g * (x * L)) := mul_le_mul_of_nonneg_right hc hgxL
  have h7 : 1.4 * (x * τ) ≤ c * (x * τ) := mul_le_mul_of_nonneg_right hc hxτ
  nlinarith

theorem sqrt_two_bound : (1.4 : ℝ) ≤ √2 := Real.le_sqrt_of_sq_le (by norm_num)

/-- What is known after `s` levels. -/
structure Stage (n s : Nat) (L : ℝ) (A' : Nat → C64) (A : Nat → ℂ) : Prop where
  fin : ∀ p < n, (A' p).Finite ∧ ‖(A' p).val‖ ≤ 4 ^ s * 2 ^ 200
  norm : l2 n A ≤ √2 ^ s * L
  err : l2 n (fun p => (A' p).val - A p) ≤ √2 ^ s * (2 * s * gam * L + 2 * s * (√n * tiny))

theorem four_pow_le {s : Nat} (hs : s ≤ 12) : (4 : ℝ) ^ s * 2 ^ 200 ≤ 2 ^ 300 := by
  rw [show (4 : ℝ) = 2 ^ 2 by norm_num, ← pow_mul, ← pow_add]
  exact pow_mono (by omega)

theorem Stage.step {n s : Nat} {L : ℝ} {A' : Nat → C64} {A : Nat → ℂ} (h : Stage n s L A' A) (hs : s < 12) (hL : 0 ≤ L)
    (m t : Nat) (hn : n = m * (2 * t)) (F : Nat → Nat → C64 → C64 → C64 × C64) (E : Nat → Nat → ℂ → ℂ → ℂ × ℂ) (W : Nat → ℂ)
    (hW : ∀ q, ‖W q‖ = 1) (hE : ∀ tid q a b, E tid q a b = (a + W q * b, a - W q * b))
    (hF : ∀ tid, ∀ q < m, ButterflyOk (F tid q) (E tid q)) : Stage n (s + 1) L (level t F A') (level t E A) := by
  have b300 := four_pow_le hs.le
  have hb1 : (1 : ℝ) ≤ 4 ^ s * 2 ^ 200 := by
    have h1 : (1 : ℝ) ≤ 4 ^ s := one_le_pow₀ (by norm_num)
    have h2 : (1 : ℝ) ≤ 2 ^ 200 := one_le_pow₀ (by norm_num)
    exact one_le_mul_of_one_le_of_one_le h1 h2
  obtain ⟨h1, h2⟩ := level_err F E A' hF (fun tid q _ a b => by rw [hE]; exact fwd_isometry _ _ _ (hW q))
    (fun tid q a b a' b' => by
      rw [hE, hE, hE]
      refine Prod.ext ?_ ?_
      · show a - a' + W q * (b - b') = a + W q * b - (a' + W q * b'); ring
      · show a - a' - W q * (b - b') = a - W q * b - (a' - W q * b'); ring)
    (by rw [← hn]; exact fun p hp => ⟨(h.fin p hp).1, (h.fin p hp).2.trans b300⟩) A n hn
  have hc0 := Real.sqrt_nonneg 2
  have hu := u53_pos
  have hu1 := u53_le
  have ht := tiny_pos
  refine ⟨?_, ?_, ?_⟩
  · intro p hp
    have := level_bound F E A' hF (fun tid q _ a b => by rw [hE]; exact fwd_le _ _ _ (hW q)) (4 ^ s * 2 ^ 200) hb1 b300
      (by rw [← hn]; exact h.fin) p (by rw [← hn]; exact hp)
    refine ⟨this.1, this.2.trans (le_of_eq ?_)⟩
    rw [pow_succ]; ring
  · rw [pow_succ]
    calc _ ≤ √2 * l2 n A := h1
      _ ≤ √2 * (√2 ^ s * L) := mul_le_mul_of_nonneg_left h.norm hc0
      _ = _ := by ring
  · refine h2.trans ?_
    have e : l2 n (fun p => (A' p).val) ≤ √2 ^ s * L + l2 n (fun p => (A' p).val - A p) := by
      have := l2_add_le n (fun p => (A' p).val - A p) A
      simp only [sub_add_cancel] at this
      linarith [h.norm]
    have hx : (1 : ℝ) ≤ √2 ^ s := one_le_pow₀ (by linarith [sqrt_two_bound])
    have := fwd_arith (√2) (√2 ^ s) s L _ (√n * tiny) gam sqrt_two_bound hx (by exact_mod_cast hs.le) hL
      (mul_nonneg (Real.sqrt_nonneg _) ht.le) gam_pos.le (by rw [gam_eq]; linarith) h.err _ e
    rw [pow_succ]
    push_cast
    exact this

/-- The direct transform in binary64. -/
theorem direct_err (ch : Contract) (K : Nat) (hK : K + 1 ≤ 12) (A' : Nat → C64)
    (hA : ∀ p < 2 ^ (K + 1), (A' p).Finite ∧ ‖(A' p).val‖ ≤ 2 ^ 200) :
    (∀ p < 2 ^ (K + 1), (direct (floatOps ch) twiddle (2 ^ (K + 1)) A' p).Finite) ∧
    l2 (2 ^ (K + 1)) (fun p => (direct (floatOps ch) twiddle (2 ^ (K + 1)) A' p).val -
        direct (cOps (2 ^ (K + 1))) rootW (2 ^ (K + 1)) (fun p => (A' p).val) p) ≤
      24 * gam * (√(2 ^ (K + 1) : ℕ) * l2 (2 ^ (K + 1)) (fun p => (A' p).val)) + u53 / 64 := by
  set n := 2 ^ (K + 1) with hn
  set L := l2 n (fun p => (A' p).val) with hLdef
  have hL : 0 ≤ L := l2_nonneg _ _
  have hh : n / 2 = 2 ^ K := by rw [hn, Nat.pow_succ]; omega
  have start : Stage n 0 L A' (fun p => (A' p).val) := by
    refine ⟨by simpa using hA, by simp [hLdef], ?_⟩
    simp [l2]
  have first := start.step (by omega) hL 1 (2 ^ K) (by rw [hn, Nat.pow_succ]; ring) (fun tid _ => (floatOps ch).first tid)
    (fun tid _ => (cOps n).first tid) (fun _ => rootW 1) (fun _ => rootW_norm 1) (fun tid q a b => by rw [cOps_eq]; rfl)
    (fun tid q _ => first_ok ch tid n)
  have all : ∀ s ≤ K, Stage n (s + 1) L ((List.range s).foldl (fun A s =>
      level (2 ^ (K - 1 - s)) (fun tid q => (floatOps ch).fwd (2 ^ (s + 1) * 1) tid (twiddle (q + 2 ^ (s + 1) * 1))) A)
      (level (2 ^ K) (fun tid _ => (floatOps ch).first tid) A'))
      ((List.range s).foldl (fun A s =>
      level (2 ^ (K - 1 - s)) (fun tid q => (cOps n).fwd (2 ^ (s + 1) * 1) tid (rootW (q + 2 ^ (s + 1) * 1))) A)
      (level (2 ^ K) (fun tid _ => (cOps n).first tid) (fun p => (A' p).val))) := by
    intro s
    induction s with
    | zero => intro _; exact first
    | succ s ih =>
      intro hs
      rw [foldl_range_succ, foldl_range_succ]
      refine (ih (by omega)).step (by omega) hL (2 ^ (s + 1)) (2 ^ (K - 1 - s)) ?_ _ _ (fun q => rootW (q + 2 ^ (s + 1) * 1))
        (fun q => rootW_norm _) (fun tid q a b => by rw [cOps_eq]; rfl) (fun tid q hq => fwd_ok ch _ _ _ _ ?_ ?_)
      · rw [hn, ← Nat.pow_succ', ← Nat.pow_add]; congr 1; omega
      · have := Nat.two_pow_pos (s + 1); omega
      · have h1 : 2 ^ (s + 1) * 2 ≤ 2 ^ 12 := by rw [← Nat.pow_succ]; exact Nat.pow_le_pow_right (by omega) (by omega)
        omega
  have h := all K le_rfl
  have ed : ∀ {V : Type} (ops : Ops V) (tw : Nat → V) (A : Nat → V), direct ops tw n A =
      (List.range K).foldl (fun A s => level (2 ^ (K - 1 - s)) (fun tid q => ops.fwd (2 ^ (s + 1) * 1) tid
        (tw (q + 2 ^ (s + 1) * 1))) A) (level (2 ^ K) (fun tid _ => ops.first tid) A) := by
    intro V ops tw A
    rw [direct, hh, fwdLevels_pow, List.foldl_map]
  rw [ed, ed]
  refine ⟨fun p hp => (h.fin p hp).1, h.err.trans ?_⟩
  have hsq : √2 ^ (K + 1) = √(n : ℝ) := by
    rw [hn]; push_cast
    symm
    rw [Real.sqrt_eq_iff_mul_self_eq (by positivity) (by positivity), ← mul_pow, Real.mul_self_sqrt (by norm_num)]
  rw [hsq]
  have hs0 := Real.sqrt_nonneg (n : ℝ)
  have hss := sqrt_mul_self' n
  have hk : ((K + 1 : ℕ) : ℝ) ≤ 12 := by exact_mod_cast hK
  have hk0 : (0 : ℝ) ≤ ((K + 1 : ℕ) : ℝ) := by positivity
  have hn12 : n ≤ 4096 := by
    rw [hn]; exact (Nat.pow_le_pow_right (by norm_num) hK)
  have htn := tiny_n (n := 24 * n) (by
    have h1 : ((24 * n : ℕ) : ℝ) ≤ 2 ^ 17 := by
      have : 24 * n ≤ 2 ^ 17 := by omega
      exact_mod_cast this
    push_cast at h1
    exact h1.trans (pow_mono (b := 800) (by norm_num)))
  have hg := gam_pos
  have ht := tiny_pos
  have e1 : 2 * ((K + 1 : ℕ) : ℝ) * gam * L ≤ 24 * gam * L := by
    have := mul_le_mul_of_nonneg_right hk (mul_nonneg hg.le hL)
    nlinarith
  have e2 : 2 * ((K + 1 : ℕ) : ℝ) * (√n * tiny) ≤ 24 * (√n * tiny) := by
    have := mul_le_mul_of_nonneg_right hk (mul_nonneg hs0 ht.le)
    nlinarith
  have e3 := mul_le_mul_of_nonneg_left (add_le_add e1 e2) hs0
  refine e3.trans ?_
  have e4 : √(n : ℝ) * (24 * gam * L + 24 * (√n * tiny)) = 24 * gam * (√n * L) + 24 * (√n * √n) * tiny := by ring
  rw [e4, hss]
  linarith

end Verif.Cuda.Nsm
