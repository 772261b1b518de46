import Verif.Fft.Elem
/-
Propagation of the errors through the transforms and the products.
-/
namespace Verif.Fft
open Verif.Float Verif.Encode Finset

theorem at_map {n : ℕ} (f : ℕ → C64) {k : ℕ} (hk : k < n) : at' ((List.range n).map f) k = f k := by
  simp [at', List.getD_eq_getElem?_getD, List.getElem?_range hk]

theorem mem_at {zs : List C64} {n : ℕ} (hl : zs.length = n) {P : C64 → Prop} :
    (∀ z ∈ zs, P z) ↔ ∀ k, k < n → P (at' zs k) := by
  subst hl
  constructor
  · intro h k hk
    rw [at', List.getD_eq_getElem?_getD, List.getElem?_eq_getElem hk]
    exact h _ (List.getElem_mem hk)
  · intro h z hz
    obtain ⟨k, hk, rfl⟩ := List.getElem_of_mem hz
    have := h k hk
    rw [at', List.getD_eq_getElem?_getD, List.getElem?_eq_getElem hk] at this
    exact this

/-- A computed transform `f` of size `n`, close to the exact one `F`, itself of norm at most `β * n`. -/
structure FwdOut (n : ℕ) (κ β : ℝ) (f : List C64) (F : ℕ → ℂ) : Prop where
  len : f.length = n
  fin : ∀ k, k < n → (at' f k).Finite
  err : l2 n (fun k => vals f k - F k) ≤ 3 * κ * β * n
  bound : l2 n F ≤ β * n

theorem sqrt_mul_self' (n : ℕ) : Real.sqrt n * Real.sqrt n = n := Real.mul_self_sqrt (by positivity)

theorem forward_err {n : ℕ} (hn0 : 0 < n) {plan : Plan} {ρ : ℕ → ℂ} {ε κ β : ℝ} (hρ : Roots n ρ)
    (hfwd : ∀ zs : List C64, zs.length = n → Bounded zs →
      (plan.fwd zs).length = n ∧ (∀ z ∈ plan.fwd zs, z.Finite) ∧
      l2 n (fun k => vals (plan.fwd zs) k - dft n ρ (vals zs) k) ≤ ε * (Real.sqrt n * l2 n (vals zs)) + tiny)
    (hε0 : 0 ≤ ε) (hε : ε ≤ κ) (hκ : κ ≤ 1 / 100) (hu : u53 ≤ κ) (hβ : 1 ≤ β) (hβ2 : β ≤ 2 ^ 100)
    (zs : List C64) (hl : zs.length = n) (hfin : ∀ j, j < n → (at' zs j).Finite) (Z : ℕ → ℂ)
    (hZ : ∀ j, j < n → ‖Z j‖ ≤ β) (he : ∀ j, j < n → ‖vals zs j - Z j‖ ≤ κ * β) :
    FwdOut n κ β (plan.fwd zs) (dft n ρ Z) := by
  have hN : (1 : ℝ) ≤ n := by exact_mod_cast hn0
  have hu0 := u53_pos
  have ht := tiny_le_u
  have hκ0 : 0 ≤ κ := hε0.trans hε
  have hβ0 : 0 ≤ β := by linarith
  have hκβ0 : 0 ≤ κ * β := mul_nonneg hκ0 hβ0
  have hκβ : κ * β ≤ 1 / 100 * β := mul_le_mul_of_nonneg_right hκ hβ0
  have hz : ∀ j, j < n → ‖vals zs j‖ ≤ 1.01 * β := by
    intro j hj
    have := norm_add_le (vals zs j - Z j) (Z j)
    rw [sub_add_cancel] at this
    have := he j hj
    have := hZ j hj
    linarith
  have hb : Bounded zs := by
    rw [Bounded, mem_at hl]
    intro k hk
    refine ⟨hfin k hk, (hz k hk).trans ?_⟩
    have h1 : (2 : ℝ) * 2 ^ 100 ≤ 2 ^ 200 := by
      rw [← pow_succ']
      exact pow_mono (by norm_num)
    generalize (2 : ℝ) ^ 200 = A at *
    generalize (2 : ℝ) ^ 100 = B at *
    linarith
  clear hβ2
  obtain ⟨f1, f2, f3⟩ := hfwd zs hl hb
  clear hfwd
  have hs := sqrt_mul_self' n
  have hs0 : 0 ≤ Real.sqrt n := Real.sqrt_nonneg _
  refine ⟨f1, (mem_at f1).1 f2, ?_, ?_⟩
  · have e : (fun k => vals (plan.fwd zs) k - dft n ρ Z k) =
        fun k => (vals (plan.fwd zs) k - dft n ρ (vals zs) k) + dft n ρ (fun j => vals zs j - Z j) k := by
      funext k
      rw [dft_sub]
      ring
    rw [e]
    refine (l2_add_le _ _ _).trans ?_
    rw [hρ.parseval]
    have h1 : l2 n (fun j => vals zs j - Z j) ≤ Real.sqrt n * (κ * β) := l2_le_of_le hκβ0 he
    have h2 : l2 n (vals zs) ≤ Real.sqrt n * (1.01 * β) := l2_le_of_le (by linarith) hz
    have h3 : Real.sqrt n * l2 n (fun j => vals zs j - Z j) ≤ n * (κ * β) := by
      calc _ ≤ Real.sqrt n * (Real.sqrt n * (κ * β)) := mul_le_mul_of_nonneg_left h1 hs0
        _ = (Real.sqrt n * Real.sqrt n) * (κ * β) := by ring
        _ = _ := by rw [hs]
    have h4 : Real.sqrt n * l2 n (vals zs) ≤ n * (1.01 * β) := by
      calc _ ≤ Real.sqrt n * (Real.sqrt n * (1.01 * β)) := mul_le_mul_of_nonneg_left h2 hs0
        _ = (Real.sqrt n * Real.sqrt n) * (1.01 * β) := by ring
        _ = _ := by rw [hs]
    have h5 : ε * (Real.sqrt n * l2 n (vals zs)) ≤ κ * (n * (1.01 * β)) :=
      mul_le_mul hε h4 (mul_nonneg hs0 (l2_nonneg _ _)) hκ0
    have h6 : κ ≤ κ * β * n := by
      have : κ * 1 ≤ κ * β := mul_le_mul_of_nonneg_left hβ hκ0
      have : κ * β * 1 ≤ κ * β * n := mul_le_mul_of_nonneg_left hN hκβ0
      linarith
    have h7 : κ * (n * (1.01 * β)) = 1.01 * (κ * β * n) := by ring
    have h8 : (n : ℝ) * (κ * β) = κ * β * n := by ring
    have h9 : 3 * κ * β * n = 3 * (κ * β * n) := by ring
    linarith
  · rw [hρ.parseval]
    have h1 : l2 n Z ≤ Real.sqrt n * β := l2_le_of_le hβ0 hZ
    calc _ ≤ Real.sqrt n * (Real.sqrt n * β) := mul_le_mul_of_nonneg_left h1 hs0
      _ = (Real.sqrt n * Real.sqrt n) * β := by ring
      _ = β * n := by rw [hs]; ring

/-- The norm of a computed transform. -/
theorem FwdOut.norm {n : ℕ} {κ β : ℝ} {f : List C64} {F : ℕ → ℂ} (h : FwdOut n κ β f F) :
    l2 n (vals f) ≤ (1 + 3 * κ) * (β * n) := by
  have e : vals f = fun k => (vals f k - F k) + F k := by funext k; ring
  rw [e]
  refine (l2_add_le _ _ _).trans ?_
  have h1 := h.err
  have h2 := h.bound
  have e2 : (1 + 3 * κ) * (β * n) = 3 * κ * β * n + β * n := by ring
  linarith

/-- The products of two computed transforms. -/
theorem FwdOut.products {n : ℕ} {κ α β : ℝ} {a d : List C64} {A D : ℕ → ℂ} (ha : FwdOut n κ α a A)
    (hd : FwdOut n κ β d D) (hκ0 : 0 ≤ κ) (hα : 0 ≤ α) (hβ : 0 ≤ β) :
    ∑ k ∈ range n, ‖vals a k * vals d k - A k * D k‖ ≤ (6 * κ + 9 * κ ^ 2) * (α * n * (β * n)) ∧
    ∑ k ∈ range n, ‖vals a k‖ * ‖vals d k‖ ≤ (1 + 3 * κ) ^ 2 * (α * n * (β * n)) ∧
    ∑ k ∈ range n, ‖A k * D k‖ ≤ α * n * (β * n) := by
  have hαn : 0 ≤ α * n := by positivity
  have hβn : 0 ≤ β * n := by positivity
  have ea0 := l2_nonneg n (fun k => vals a k - A k)
  have ed0 := l2_nonneg n (fun k => vals d k - D k)
  have eA0 := l2_nonneg n A
  have eD0 := l2_nonneg n D
  have h1 := ha.err
  have h2 := hd.err
  have h3 := ha.bound
  have h4 := hd.bound
  refine ⟨?_, ?_, ?_⟩
  · have hk : ∀ k ∈ range n, ‖vals a k * vals d k - A k * D k‖ ≤
        ‖vals a k - A k‖ * ‖D k‖ + ‖A k‖ * ‖vals d k - D k‖ + ‖vals a k - A k‖ * ‖vals d k - D k‖ := by
      intro k _
      have e : vals a k * vals d k - A k * D k =
          (vals a k - A k) * D k + A k * (vals d k - D k) + (vals a k - A k) * (vals d k - D k) := by ring
      rw [e]
      refine (norm_add_le _ _).trans ?_
      rw [norm_mul (vals a k - A k) (vals d k - D k)]
      have := norm_add_le ((vals a k - A k) * D k) (A k * (vals d k - D k))
      rw [norm_mul, norm_mul] at this
      linarith
    refine (sum_le_sum hk).trans ?_
    rw [sum_add_distrib, sum_add_distrib]
    have s1 := sum_mul_le n (fun k => vals a k - A k) D
    have s2 := sum_mul_le n A (fun k => vals d k - D k)
    have s3 := sum_mul_le n (fun k => vals a k - A k) (fun k => vals d k - D k)
    have m1 : l2 n (fun k => vals a k - A k) * l2 n D ≤ (3 * κ * α * n) * (β * n) :=
      mul_le_mul h1 h4 eD0 (ea0.trans h1)
    have m2 : l2 n A * l2 n (fun k => vals d k - D k) ≤ (α * n) * (3 * κ * β * n) := mul_le_mul h3 h2 ed0 hαn
    have m3 : l2 n (fun k => vals a k - A k) * l2 n (fun k => vals d k - D k) ≤ (3 * κ * α * n) * (3 * κ * β * n) :=
      mul_le_mul h1 h2 ed0 (ea0.trans h1)
    have e : (6 * κ + 9 * κ ^ 2) * (α * n * (β * n)) =
      (3 * κ * α * n) * (β * n) + (α * n) * (3 * κ * β * n) + (3 * κ * α * n) * (3 * κ * β * n) := by ring
    rw [e]
    linarith
  · refine (sum_mul_le n _ _).trans ?_
    have e : (1 + 3 * κ) ^ 2 * (α * n * (β * n)) = ((1 + 3 * κ) * (α * n)) * ((1 + 3 * κ) * (β * n)) := by ring
    rw [e]
    exact mul_le_mul ha.norm hd.norm (l2_nonneg _ _) (mul_nonneg (by linarith) hαn)
  · simp only [norm_mul]
    exact (sum_mul_le n _ _).trans (mul_le_mul h3 h4 eD0 hαn)

/-! ### Accumulation -/

theorem fmadd_none {n : ℕ} (c : Cpu) (h8 : 8 ∣ n) (a d : List C64) (ha : a.length = n) (hd : d.length = n) {k : ℕ}
    (hk : k < n) (fa : (at' a k).Finite) (fd : (at' d k).Finite) (ba : ‖vals a k‖ ≤ 2 ^ 400) (bd : ‖vals d k‖ ≤ 2 ^ 400) :
    Close (at' (updateWithFmadd c none a d) k) (vals a k * vals d k) (gam * (‖vals a k‖ * ‖vals d k‖) + tiny) := by
  have h2 : 2 ∣ n := (by norm_num : 2 ∣ 8).trans h8
  have h4 : 4 ∣ n := (by norm_num : 4 ∣ 8).trans h8
  unfold updateWithFmadd
  split
  · rw [fmaddScalar_none n a d ha hd, at_map _ hk]
    exact (mul_err _ _ fa fd ba bd).mono (six_le_gam (mul_nonneg (norm_nonneg _) (norm_nonneg _)))
  · rw [fmaddSimd_none 2 n (Or.inl rfl) h2 a d ha hd, at_map _ hk]
    exact (mulFused_err _ _ fa fd ba bd).mono (six_le_gam (mul_nonneg (norm_nonneg _) (norm_nonneg _)))
  · rw [fmaddSimd_none 4 n (Or.inr rfl) h4 a d ha hd, at_map _ hk]
    exact (mulFused_err _ _ fa fd ba bd).mono (six_le_gam (mul_nonneg (norm_nonneg _) (norm_nonneg _)))

theorem fmadd_some {n : ℕ} (c : Cpu) (h8 : 8 ∣ n) (o a d : List C64) (ho : o.length = n) (ha : a.length = n)
    (hd : d.length = n) {k : ℕ} (hk : k < n) (fo : (at' o k).Finite) (fa : (at' a k).Finite) (fd : (at' d k).Finite)
    (bo : ‖vals o k‖ ≤ 2 ^ 850) (ba : ‖vals a k‖ ≤ 2 ^ 400) (bd : ‖vals d k‖ ≤ 2 ^ 400) :
    Close (at' (updateWithFmadd c (some o) a d) k) (vals o k + vals a k * vals d k)
      (gam * (‖vals o k‖ + ‖vals a k‖ * ‖vals d k‖) + tiny) := by
  have h2 : 2 ∣ n := (by norm_num : 2 ∣ 8).trans h8
  have h4 : 4 ∣ n := (by norm_num : 4 ∣ 8).trans h8
  unfold updateWithFmadd
  split
  · rw [fmaddScalar_some n o a d ho ha hd, at_map _ hk]
    exact addMul_err _ _ _ fo fa fd bo ba bd
  · rw [fmaddSimd_some 2 n (Or.inl rfl) h2 o a d ho ha hd, at_map _ hk]
    exact mulAddFused_err _ _ _ fo fa fd bo ba bd
  · rw [fmaddSimd_some 4 n (Or.inr rfl) h4 o a d ho ha hd, at_map _ hk]
    exact mulAddFused_err _ _ _ fo fa fd bo ba bd

theorem fmadd_length {n : ℕ} (c : Cpu) (h8 : 8 ∣ n) (acc : Option (List C64)) (a d : List C64)
    (ho : ∀ o, acc = some o → o.length = n) (ha : a.length = n) (hd : d.length = n) :
    (updateWithFmadd c acc a d).length = n := by
  have h2 : 2 ∣ n := (by norm_num : 2 ∣ 8).trans h8
  have h4 : 4 ∣ n := (by norm_num : 4 ∣ 8).trans h8
  unfold updateWithFmadd
  cases acc with
  | none =>
    split
    · rw [fmaddScalar_none n a d ha hd]; simp
    · rw [fmaddSimd_none 2 n (Or.inl rfl) h2 a d ha hd]; simp
    · rw [fmaddSimd_none 4 n (Or.inr rfl) h4 a d ha hd]; simp
  | some o =>
    have ho := ho o rfl
    split
    · rw [fmaddScalar_some n o a d ho ha hd]; simp
    · rw [fmaddSimd_some 2 n (Or.inl rfl) h2 o a d ho ha hd]; simp
    · rw [fmaddSimd_some 4 n (Or.inr rfl) h4 o a d ho ha hd]; simp

/-- The accumulator after `m` products: close to `T`, the sum of the products of the computed transforms; `G` is the
sum of their moduli. -/
structure Acc (n m : ℕ) (acc : Option (List C64)) (T : ℕ → ℂ) (G : ℕ → ℝ) : Prop where
  none : acc = none → m = 0 ∧ ∀ k, k < n → T k = 0
  len : ∀ o, acc = some o → o.length = n
  fin : ∀ o, acc = some o → ∀ k, k < n → (at' o k).Finite
  sum : ∀ k, k < n → ‖T k‖ ≤ G k
  size : ∀ k, k < n → G k ≤ m * (2 ^ 200 * 2 ^ 200)
  err : ∀ o, acc = some o → ∀ k, k < n → ‖vals o k - T k‖ ≤ 2 * m * gam * G k + 2 * m * tiny

theorem acc_arith (m γ η g e p : ℝ) (hm : 0 ≤ m) (hγ : 0 ≤ γ) (hη : 0 ≤ η) (hg : 0 ≤ g) (hp : 0 ≤ p)
    (hmγ : 2 * m * γ ≤ 1) (he : e ≤ 2 * m * γ * g + 2 * m * η) :
    e + (γ * (g + e + p) + η) ≤ 2 * (m + 1) * γ * (g + p) + 2 * (m + 1) * η := by
  have h1 : γ * e ≤ γ * (2 * m * γ * g + 2 * m * η) := mul_le_mul_of_nonneg_left he hγ
  have h2 : 2 * m * γ * (γ * g) ≤ 1 * (γ * g) := mul_le_mul_of_nonneg_right hmγ (mul_nonneg hγ hg)
  have h3 : 2 * m * γ * η ≤ 1 * η := mul_le_mul_of_nonneg_right hmγ hη
  have h4 : 0 ≤ m * γ * p := mul_nonneg (mul_nonneg hm hγ) hp
  have h5 : 0 ≤ γ * p := mul_nonneg hγ hp
  nlinarith

theorem acc_size_bound (m : ℕ) (hm : (m : ℝ) ≤ 2 ^ 100) (G e : ℝ) (h : G ≤ m * (2 ^ 200 * 2 ^ 200)) (he : e ≤ 2 * G + 1) :
    e ≤ 2 ^ 850 := by
  have h1 : (m : ℝ) * (2 ^ 200 * 2 ^ 200) ≤ 2 ^ 100 * (2 ^ 200 * 2 ^ 200) := mul_le_mul_of_nonneg_right hm (by positivity)
  have h2 : (2 : ℝ) ^ 100 * (2 ^ 200 * 2 ^ 200) = 2 ^ 500 := by rw [← pow_add, ← pow_add]
  have h3 := pow_double 500
  have h4 := pow_double 501
  have h5 : (2 : ℝ) ^ 502 ≤ 2 ^ 850 := pow_mono (by norm_num)
  have h6 : (1 : ℝ) ≤ 2 ^ 500 := one_le_pow₀ (by norm_num)
  norm_num only at h3 h4
  rw [h2] at h1
  generalize (2 : ℝ) ^ 500 = A at *
  generalize (2 : ℝ) ^ 501 = B at *
  generalize (2 : ℝ) ^ 502 = C at *
  generalize (2 : ℝ) ^ 850 = E at *
  generalize (m : ℝ) * (2 ^ 200 * 2 ^ 200) = F at *
  linarith

theorem Acc.step {n m : ℕ} {acc : Option (List C64)} {T : ℕ → ℂ} {G : ℕ → ℝ} (h : Acc n m acc T G) (c : Cpu)
    (h8 : 8 ∣ n) (a d : List C64) (ha : a.length = n) (hd : d.length = n) (fa : ∀ k, k < n → (at' a k).Finite)
    (fd : ∀ k, k < n → (at' d k).Finite) (ba : ∀ k, k < n → ‖vals a k‖ ≤ 2 ^ 200)
    (bd : ∀ k, k < n → ‖vals d k‖ ≤ 2 ^ 200) (hm : 2 * (m + 1 : ℝ) * gam ≤ 1) :
    Acc n (m + 1) (some (updateWithFmadd c acc a d)) (fun k => T k + vals a k * vals d k)
      (fun k => G k + ‖vals a k‖ * ‖vals d k‖) := by
  have hγ := gam_pos
  have ht := tiny_pos
  have hm0 : (0 : ℝ) ≤ m := Nat.cast_nonneg m
  have h400 : (2 : ℝ) ^ 200 ≤ 2 ^ 400 := pow_mono (by norm_num)
  have hm100 : (m : ℝ) ≤ 2 ^ 100 := by
    have : 2 * (m + 1 : ℝ) * gam = (m + 1) / 2 ^ 48 := by unfold gam; ring
    rw [this, div_le_one (by positivity)] at hm
    have : (2 : ℝ) ^ 48 ≤ 2 ^ 100 := pow_mono (by norm_num)
    linarith
  have hmγ : 2 * (m : ℝ) * gam ≤ 1 := by nlinarith
  -- one element
  have key : ∀ k, k < n → Close (at' (updateWithFmadd c acc a d) k) (T k + vals a k * vals d k)
      (2 * (m + 1 : ℝ) * gam * (G k + ‖vals a k‖ * ‖vals d k‖) + 2 * (m + 1) * tiny) := by
    intro k hk
    have hG : 0 ≤ G k := (norm_nonneg _).trans (h.sum k hk)
    have hp : 0 ≤ ‖vals a k‖ * ‖vals d k‖ := mul_nonneg (norm_nonneg _) (norm_nonneg _)
    have ba' := (ba k hk).trans h400
    have bd' := (bd k hk).trans h400
    cases hacc : acc with
    | none =>
      obtain ⟨rfl, hT⟩ := h.none hacc
      rw [hT k hk, zero_add]
      refine (fmadd_none c h8 a d ha hd hk (fa k hk) (fd k hk) ba' bd').mono ?_
      clear hm100 ba bd ba' bd' h400
      simp only [Nat.cast_zero, zero_add, mul_one]
      have : 0 ≤ gam * G k := mul_nonneg hγ.le hG
      have : 0 ≤ gam * (‖vals a k‖ * ‖vals d k‖) := mul_nonneg hγ.le hp
      linarith
    | some o =>
      have he := h.err o hacc k hk
      have hon : ‖vals o k‖ ≤ G k + ‖vals o k - T k‖ := by
        have := norm_add_le (vals o k - T k) (T k)
        rw [sub_add_cancel] at this
        have := h.sum k hk
        linarith
      have hT1 : tiny ≤ 1 := by
        have := tiny_le_u
        have := u53_le
        linarith
      have hmt : 2 * (m : ℝ) * tiny ≤ 1 := by
        have h1 := tiny_n (n := 2 * m) (by
          have h2 : (2 : ℝ) * 2 ^ 100 ≤ 2 ^ 800 := by rw [← pow_succ']; exact pow_mono (by norm_num)
          clear ba bd ba' bd' h400 he hon
          generalize (2 : ℝ) ^ 800 = A at *
          generalize (2 : ℝ) ^ 100 = B at *
          linarith)
        have := u53_le
        have := u53_pos
        linarith
      have hb : ‖vals o k‖ ≤ 2 ^ 850 := by
        refine acc_size_bound m hm100 (G k) _ (h.size k hk) ?_
        have : 2 * (m : ℝ) * gam * G k ≤ 1 * G k := mul_le_mul_of_nonneg_right hmγ hG
        clear hm100 ba bd ba' bd' h400
        linarith
      obtain ⟨r1, r2⟩ := fmadd_some c h8 o a d (h.len o hacc) ha hd hk (h.fin o hacc k hk) (fa k hk) (fd k hk) hb ba' bd'
      refine ⟨r1, ?_⟩
      clear hm100 ba bd ba' bd' h400 hb
      have e : (at' (updateWithFmadd c (some o) a d) k).val - (T k + vals a k * vals d k) =
          ((at' (updateWithFmadd c (some o) a d) k).val - (vals o k + vals a k * vals d k)) + (vals o k - T k) := by ring
      rw [e]
      refine (norm_add_le _ _).trans ?_
      have h1 : gam * (‖vals o k‖ + ‖vals a k‖ * ‖vals d k‖) ≤
          gam * (G k + ‖vals o k - T k‖ + ‖vals a k‖ * ‖vals d k‖) := mul_le_mul_of_nonneg_left (by linarith) hγ.le
      have := acc_arith m gam tiny (G k) _ _ hm0 hγ.le ht.le hG hp hmγ he
      linarith
  refine ⟨by simp, ?_, ?_, ?_, ?_, ?_⟩
  · intro o ho
    obtain rfl := Option.some.inj ho
    exact fmadd_length c h8 acc a d h.len ha hd
  · intro o ho k hk
    obtain rfl := Option.some.inj ho
    exact (key k hk).1.finite
  · intro k hk
    refine (norm_add_le _ _).trans ?_
    rw [norm_mul]
    exact add_le_add (h.sum k hk) le_rfl
  · intro k hk
    have h1 : ‖vals a k‖ * ‖vals d k‖ ≤ 2 ^ 200 * 2 ^ 200 := mul_le_mul (ba k hk) (bd k hk) (norm_nonneg _) (by positivity)
    have h2 := h.size k hk
    push_cast
    rw [add_mul, one_mul]
    exact add_le_add h2 h1
  · intro o ho k hk
    obtain rfl := Option.some.inj ho
    have := (key k hk).2
    push_cast
    exact this

theorem acc_fold {X : Type} {n : ℕ} (c : Cpu) (h8 : 8 ∣ n) (a d : X → List C64) (xs : List X)
    (hx : ∀ x ∈ xs, (a x).length = n ∧ (d x).length = n ∧
      ∀ k, k < n → (at' (a x) k).Finite ∧ (at' (d x) k).Finite ∧ ‖vals (a x) k‖ ≤ 2 ^ 200 ∧ ‖vals (d x) k‖ ≤ 2 ^ 200)
    (m : ℕ) (acc : Option (List C64)) (T : ℕ → ℂ) (G : ℕ → ℝ) (h : Acc n m acc T G)
    (hm : 2 * (m + xs.length : ℝ) * gam ≤ 1) :
    Acc n (m + xs.length) (xs.foldl (fun acc x => some (updateWithFmadd c acc (a x) (d x))) acc)
      (fun k => T k + (xs.map fun x => vals (a x) k * vals (d x) k).sum)
      (fun k => G k + (xs.map fun x => ‖vals (a x) k‖ * ‖vals (d x) k‖).sum) := by
  induction xs generalizing m acc T G with
  | nil => simpa using h
  | cons x xs ih =>
    obtain ⟨h1, h2, h3⟩ := hx x (List.mem_cons_self ..)
    have hg := gam_pos
    rw [List.length_cons] at hm
    push_cast at hm
    have hl : (0 : ℝ) ≤ xs.length := Nat.cast_nonneg _
    have hs := h.step c h8 (a x) (d x) h1 h2 (fun k hk => (h3 k hk).1) (fun k hk => (h3 k hk).2.1)
      (fun k hk => (h3 k hk).2.2.1) (fun k hk => (h3 k hk).2.2.2) (by nlinarith)
    have := ih (fun y hy => hx y (List.mem_cons_of_mem _ hy)) (m + 1) _ _ _ hs (by push_cast; linarith)
    simp only [List.foldl_cons, List.map_cons, List.sum_cons, List.length_cons]
    rw [show m + (xs.length + 1) = m + 1 + xs.length by ring]
    simpa only [add_assoc] using this

/-! ### Sums over the products -/

theorem sum_list_le {X : Type} (n : ℕ) (xs : List X) (f : X → ℕ → ℝ) (B : ℝ)
    (h : ∀ x ∈ xs, ∑ k ∈ range n, f x k ≤ B) : ∑ k ∈ range n, (xs.map fun x => f x k).sum ≤ xs.length * B := by
  induction xs with
  | nil => simp
  | cons x xs ih =>
    simp only [List.map_cons, List.sum_cons, sum_add_distrib, List.length_cons]
    have h1 := h x (List.mem_cons_self ..)
    have h2 := ih fun y hy => h y (List.mem_cons_of_mem _ hy)
    push_cast
    linarith

theorem norm_list_sub {X : Type} (xs : List X) (f g : X → ℂ) :
    ‖(xs.map f).sum - (xs.map g).sum‖ ≤ (xs.map fun x => ‖f x - g x‖).sum := by
  induction xs with
  | nil => simp
  | cons x xs ih =>
    simp only [List.map_cons, List.sum_cons]
    rw [add_sub_add_comm]
    exact (norm_add_le _ _).trans (add_le_add le_rfl ih)

theorem norm_list {X : Type} (xs : List X) (f : X → ℂ) : ‖(xs.map f).sum‖ ≤ (xs.map fun x => ‖f x‖).sum := by
  induction xs with
  | nil => simp
  | cons x xs ih =>
    simp only [List.map_cons, List.sum_cons]
    exact (norm_add_le _ _).trans (add_le_add le_rfl ih)

end Verif.Fft
