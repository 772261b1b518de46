import Verif.Random.Props
import Verif.Float.Lemmas
/-
C103: the sampler that gives zero with a chosen probability (random/uniform_with_zeros.rs).
-/
namespace Verif.Random
open Verif.Float

/-- `u as f32` for a `u32`, as an integer: nearest multiple of the unit in the last place of a 24 bit
significand, ties to even. -/
def f32OfU32 (u : Nat) : ℤ := rne ((u : ℚ) / 2 ^ (Nat.log2 u - 23)) * 2 ^ (Nat.log2 u - 23)

/-- uniform_with_zeros.rs:22-23: `uniform_u32 as f32 / u32::MAX as f32`. `u32::MAX as f32` is `2^32`, so the
division is exact. -/
def floatSample (u : Nat) : F64 := .fin ((f32OfU32 u : ℚ) / (f32OfU32 (2 ^ 32 - 1) : ℚ))

/-- uniform_with_zeros.rs:18-29 `generate_one`. The probability is an `f32`, seen as the `f64` of the same value. -/
def uniformWithZeros (w : Nat) (p : F64) : Samp (BitVec w) := fun g =>
  match uniform 32 g with
  | none => none
  | some (u, g') => if (floatSample u.toNat).lt p then some (0#w, g') else uniform w g'

/-- generator.rs:503-516 `fill_tensor_with_random_uniform_with_zeros`, 533-543
`random_uniform_with_zeros_tensor`. -/
def uniformWithZerosTensor (w : Nat) (p : F64) (n : Nat) : Samp (List (BitVec w)) := rep n (uniformWithZeros w p)

/-! ### Specification -/

/-- The numbers below `2^32` for which the sampler answers zero without a second draw. -/
def zeroDraws (p : F64) : Finset Nat := (Finset.range (2 ^ 32)).filter fun u => (floatSample u).lt p

/-! ### Lemmas -/

theorem f32_max : f32OfU32 (2 ^ 32 - 1) = 2 ^ 32 := by decide +kernel

theorem f32_near (u : Nat) (hu : u < 2 ^ 32) : |(f32OfU32 u : ℚ) - u| ≤ 128 := by
  have he : Nat.log2 u - 23 ≤ 8 := by
    by_cases h0 : u = 0
    · subst h0; decide
    · have := (Nat.log2_lt h0).2 hu
      omega
  rw [f32OfU32]
  set e := Nat.log2 u - 23
  have h1 := abs_rne_sub_le ((u : ℚ) / 2 ^ e)
  have h2 : (0 : ℚ) < 2 ^ e := by positivity
  have h3 : (2 : ℚ) ^ e ≤ 2 ^ 8 := pow_le_pow_right₀ (by norm_num) he
  have e1 : (((rne ((u : ℚ) / 2 ^ e) * 2 ^ e : ℤ)) : ℚ) - u = (rne ((u : ℚ) / 2 ^ e) - (u : ℚ) / 2 ^ e) * 2 ^ e := by
    push_cast
    field_simp
  rw [e1, abs_mul, abs_of_pos h2]
  nlinarith [abs_nonneg ((rne ((u : ℚ) / 2 ^ e) : ℚ) - (u : ℚ) / 2 ^ e)]

theorem floatSample_eq (u : Nat) : floatSample u = .fin ((f32OfU32 u : ℚ) / 2 ^ 32) := by
  rw [floatSample, f32_max]; norm_num

/-! ### Properties -/

/-- C103. The sampler reads 4 bytes. When they are one of the draws for zero the result is zero, otherwise it is
the uniform value of the next bytes. It panics exactly when the bytes it needs are not left. -/
theorem C103_draw (k : Nat) (p : F64) (g : Src) (hg : g.pos ≤ g.bound) :
    (g.bound < g.pos + 4 → uniformWithZeros (8 * k) p g = none) ∧
    (g.pos + 4 ≤ g.bound → leValue g.table g.pos 4 ∈ zeroDraws p →
      uniformWithZeros (8 * k) p g = some (0, g.skip 4)) ∧
    (leValue g.table g.pos 4 ∉ zeroDraws p →
      (g.pos + 4 + k ≤ g.bound → ∃ x, uniformWithZeros (8 * k) p g = some (x, g.skip (4 + k)) ∧
        x.toNat = leValue g.table (g.pos + 4) k) ∧
      (g.bound < g.pos + 4 + k → uniformWithZeros (8 * k) p g = none)) := by
  have hlt := leValue_lt g.table g.pos 4
  have h4 : (g.pos + 4 ≤ g.bound → ∃ x, uniform 32 g = some (x, g.skip 4) ∧ x.toNat = leValue g.table g.pos 4) ∧
      (¬ g.pos + 4 ≤ g.bound → uniform 32 g = none) := C20_uniform 4 g hg
  have hnone : g.bound < g.pos + 4 → uniformWithZeros (8 * k) p g = none := by
    intro h
    rw [uniformWithZeros, h4.2 (by omega)]
  have hmem : leValue g.table g.pos 4 ∈ zeroDraws p ↔ (floatSample (leValue g.table g.pos 4)).lt p = true := by
    rw [zeroDraws, Finset.mem_filter, Finset.mem_range]
    exact ⟨fun h => h.2, fun h => ⟨hlt, h⟩⟩
  refine ⟨hnone, ?_, ?_⟩
  · intro h hz
    obtain ⟨x, e, hx⟩ := h4.1 h
    rw [uniformWithZeros, e]
    simp only [hx]
    rw [if_pos (hmem.1 hz)]
    rfl
  · intro hz
    by_cases h : g.pos + 4 ≤ g.bound
    · obtain ⟨x, e, hx⟩ := h4.1 h
      have hs : uniformWithZeros (8 * k) p g = uniform (8 * k) (g.skip 4) := by
        rw [uniformWithZeros, e]
        simp only [hx]
        rw [if_neg (fun c => hz (hmem.2 c))]
      have hk := C20_uniform k (g.skip 4) h
      rw [hs]
      refine ⟨fun h' => ?_, fun h' => hk.2 (by simp only [Src.skip]; omega)⟩
      obtain ⟨y, e', hy⟩ := hk.1 h'
      exact ⟨y, by rw [e', skip_skip], hy⟩
    · exact ⟨fun h' => absurd h' (by omega), fun _ => hnone (by omega)⟩

/-- C103. A tensor of `n` elements needs between `4 n` and `(4 + k) n` bytes, and the latter are always enough. -/
theorem C103_tensor (k : Nat) (p : F64) : ∀ (n : Nat) (g : Src), g.pos + n * (4 + k) ≤ g.bound →
    ∃ xs m, uniformWithZerosTensor (8 * k) p n g = some (xs, g.skip m) ∧ xs.length = n ∧
      4 * n ≤ m ∧ m ≤ n * (4 + k)
  | 0, g, _ => ⟨[], 0, rfl, rfl, by omega, by omega⟩
  | n + 1, g, h => by
    rw [Nat.add_mul] at h
    have hd := C103_draw k p g (by omega)
    obtain ⟨x, c, e, h4, hk⟩ : ∃ x c, uniformWithZeros (8 * k) p g = some (x, g.skip c) ∧ 4 ≤ c ∧ c ≤ 4 + k := by
      by_cases hz : leValue g.table g.pos 4 ∈ zeroDraws p
      · exact ⟨_, 4, hd.2.1 (by omega) hz, by omega, by omega⟩
      · obtain ⟨x, e, _⟩ := (hd.2.2 hz).1 (by omega)
        exact ⟨x, _, e, by omega, by omega⟩
    obtain ⟨xs, m, e', hl, h1, h2⟩ := C103_tensor k p n (g.skip c) (by simp only [Src.skip]; omega)
    refine ⟨x :: xs, c + m, ?_, by simp [hl], by omega, by rw [Nat.add_mul]; omega⟩
    rw [uniformWithZerosTensor] at e' ⊢
    rw [rep, e]
    simp only [e', skip_skip]

/-- C103. For a probability `p` between 0 and 1, the share of the draws that give zero differs from `p` by at
most `129 / 2^32`. -/
theorem C103_probability (p : ℚ) (h0 : 0 ≤ p) (h1 : p ≤ 1) :
    |((zeroDraws (.fin p)).card : ℚ) / 2 ^ 32 - p| ≤ 129 / 2 ^ 32 := by
  have hmem : ∀ u, u ∈ zeroDraws (.fin p) ↔ u < 2 ^ 32 ∧ (f32OfU32 u : ℚ) < p * 2 ^ 32 := by
    intro u
    rw [zeroDraws, Finset.mem_filter, Finset.mem_range, floatSample_eq]
    simp only [F64.lt, decide_eq_true_eq]
    rw [div_lt_iff₀ (by positivity)]
  have hT : (0 : ℚ) ≤ p * 2 ^ 32 := by positivity
  have hT1 : p * 2 ^ 32 ≤ (2 : ℚ) ^ 32 := by nlinarith [show (0 : ℚ) < 2 ^ 32 by positivity]
  set T := p * 2 ^ 32
  have hup : zeroDraws (.fin p) ⊆ Finset.range (⌈T + 128⌉₊) := by
    intro u hu
    obtain ⟨hlt, hr⟩ := (hmem u).1 hu
    rw [Finset.mem_range, Nat.lt_ceil]
    have := abs_le.1 (f32_near u hlt)
    linarith
  have hlow : Finset.range (⌈T - 128⌉₊) ⊆ zeroDraws (.fin p) := by
    intro u hu
    rw [Finset.mem_range, Nat.lt_ceil] at hu
    have hlt : u < 2 ^ 32 := by
      have : (u : ℚ) < 2 ^ 32 := by linarith
      exact_mod_cast this
    refine (hmem u).2 ⟨hlt, ?_⟩
    have := abs_le.1 (f32_near u hlt)
    linarith
  have c1 := Finset.card_le_card hup
  have c2 := Finset.card_le_card hlow
  rw [Finset.card_range] at c1 c2
  have d1 : ((zeroDraws (.fin p)).card : ℚ) ≤ T + 129 := by
    have := Nat.ceil_lt_add_one (show (0 : ℚ) ≤ T + 128 by linarith)
    have h : ((zeroDraws (.fin p)).card : ℚ) ≤ (⌈T + 128⌉₊ : ℚ) := by exact_mod_cast c1
    linarith
  have d2 : T - 128 ≤ ((zeroDraws (.fin p)).card : ℚ) := by
    have := Nat.le_ceil (T - 128)
    have h : (⌈T - 128⌉₊ : ℚ) ≤ ((zeroDraws (.fin p)).card : ℚ) := by exact_mod_cast c2
    linarith
  have e : ((zeroDraws (.fin p)).card : ℚ) / 2 ^ 32 - p = (((zeroDraws (.fin p)).card : ℚ) - T) / 2 ^ 32 := by
    simp only [T]; field_simp
  rw [e, abs_div, abs_of_pos (show (0 : ℚ) < 2 ^ 32 by positivity)]
  apply div_le_div_of_nonneg_right _ (by positivity)
  rw [abs_le]
  constructor <;> linarith

/-- C103. The extreme probabilities: zero or less (or not a number) never gives the draw for zero, more than one
always does. -/
theorem C103_extremes :
    (∀ p : ℚ, p ≤ 0 → zeroDraws (.fin p) = ∅) ∧ zeroDraws .nan = ∅ ∧
    (∀ p : ℚ, 1 < p → zeroDraws (.fin p) = Finset.range (2 ^ 32)) ∧ zeroDraws .pinf = Finset.range (2 ^ 32) := by
  refine ⟨?_, ?_, ?_, ?_⟩
  · intro p hp
    refine Finset.filter_false_of_mem fun u _ => ?_
    rw [floatSample_eq]
    simp only [F64.lt, decide_eq_true_eq, not_lt]
    refine hp.trans (div_nonneg ?_ (by positivity))
    have : 0 ≤ f32OfU32 u :=
      mul_nonneg (rne_mono_int 0 _ (by simpa using by positivity)) (by positivity)
    exact_mod_cast this
  · refine Finset.filter_false_of_mem fun u _ => ?_
    rw [floatSample_eq]; simp [F64.lt]
  · intro p hp
    refine Finset.filter_true_of_mem fun u hu => ?_
    rw [floatSample_eq]
    simp only [F64.lt, decide_eq_true_eq]
    refine lt_of_le_of_lt ?_ hp
    rw [div_le_one (by positivity)]
    have hu' := Finset.mem_range.1 hu
    by_cases h : u < 2 ^ 32 - 128
    · have h1 := abs_le.1 (f32_near u hu')
      have h2 : (u : ℚ) ≤ 2 ^ 32 - 129 := by
        have : u + 129 ≤ 2 ^ 32 := by omega
        have : ((u + 129 : Nat) : ℚ) ≤ ((2 ^ 32 : Nat) : ℚ) := by exact_mod_cast this
        push_cast at this; linarith
      linarith
    · have hl : Nat.log2 u = 31 := by
        have a := (Nat.log2_lt (n := u) (by omega)).2 hu'
        have b := (Nat.le_log2 (n := u) (by omega) (k := 31)).2 (by omega)
        omega
      have h1 : rne ((u : ℚ) / 2 ^ 8) ≤ 2 ^ 24 := by
        have := rne_mono_int (-2 ^ 24) (-((u : ℚ) / 2 ^ 8)) (by
          have : (u : ℚ) ≤ 2 ^ 32 := by exact_mod_cast hu'.le
          push_cast
          rw [neg_le_neg_iff, div_le_iff₀ (by positivity)]
          linarith)
        rw [rne_neg] at this
        linarith
      rw [f32OfU32, hl]
      have : rne ((u : ℚ) / 2 ^ (31 - 23)) * 2 ^ (31 - 23) ≤ (2 ^ 32 : ℤ) := by
        have e : (31 - 23 : Nat) = 8 := rfl
        rw [e]
        linarith
      exact_mod_cast this
  · refine Finset.filter_true_of_mem fun u _ => ?_
    rw [floatSample_eq]; simp [F64.lt]

/-- C103, probability one: the result is not always zero. The four bytes 255 are drawn as the number 1, which is
not below the probability, and the sampler returns the next word. -/
theorem C103_probability_one_violated (k : Nat) (g : Src) (hg : g.pos + 4 + k ≤ g.bound)
    (h255 : ∀ i, i < 4 → g.table (g.pos + i) = 255#8) :
    ∃ x, uniformWithZeros (8 * k) (.fin 1) g = some (x, g.skip (4 + k)) ∧
      x.toNat = leValue g.table (g.pos + 4) k := by
  have hv : leValue g.table g.pos 4 = 2 ^ 32 - 1 := by
    simp only [leValue, Finset.sum_range_succ, Finset.sum_range_zero]
    rw [h255 0 (by omega), h255 1 (by omega), h255 2 (by omega), h255 3 (by omega)]
    decide
  refine ((C103_draw k (.fin 1) g (by omega)).2.2 ?_).1 hg
  rw [hv, zeroDraws, Finset.mem_filter, floatSample_eq, f32_max]
  simp [F64.lt]
  norm_num

-- 2^31 - 65 is a draw for zero with probability one half, 2^31 is not
example : (2 ^ 31 - 65) ∈ zeroDraws (.fin (1 / 2)) ∧ 2 ^ 31 ∉ zeroDraws (.fin (1 / 2)) := by
  simp only [zeroDraws, Finset.mem_filter, Finset.mem_range]
  decide +kernel

-- the value after the four bytes 255, here 5, is returned with probability one for zero
example : (uniformWithZeros 8 (.fin 1) ⟨fun i => if i < 4 then 255#8 else 5#8, 0, 10⟩).map (fun r => r.1.toNat) =
    some 5 := by decide +kernel

end Verif.Random
