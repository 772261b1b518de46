import Verif.Random.Lemmas
/-
The outcome of a fork of the encryption generator, in closed form.
-/
namespace Verif.Random

/-- The children of a successful fork of the encryption generator. -/
theorem encFork_ok {g g' : EncGen} {n a b : Nat} {gens : List EncGen}
    (h : g.tryFork n a b = (.ok gens, g')) :
    0 < n ∧ 0 < a ∧ 0 < b ∧ g.mask.pos + n * a ≤ g.mask.bound ∧ g.noise.pos + n * b ≤ g.noise.bound ∧
    g' = { mask := g.mask.skip (n * a), noise := g.noise.skip (n * b) } ∧
    gens = (List.range n).map fun i =>
      { mask := { g.mask with pos := g.mask.pos + i * a, bound := g.mask.pos + (i + 1) * a },
        noise := { g.noise with pos := g.noise.pos + i * b, bound := g.noise.pos + (i + 1) * b } } := by
  simp only [EncGen.tryFork, Src.tryFork] at h
  by_cases h1 : n = 0
  · simp [h1] at h
  by_cases h2 : a = 0
  · simp [h1, h2] at h
  by_cases h3 : g.mask.pos + n * a ≤ g.mask.bound
  · by_cases h4 : b = 0
    · simp [h1, h2, h3, h4] at h
    by_cases h5 : g.noise.pos + n * b ≤ g.noise.bound
    · simp only [h1, h2, h3, h4, h5, if_true, if_false, Prod.mk.injEq, Except.ok.injEq] at h
      obtain ⟨rfl, rfl⟩ := h
      refine ⟨by omega, by omega, by omega, h3, h5, rfl, ?_⟩
      apply List.ext_getElem
      · simp
      · intro i hi1 hi2
        simp
    · simp [h1, h2, h3, h4, h5] at h
  · simp [h1, h2, h3] at h

/-- The fork succeeds exactly when both streams have room. -/
theorem encFork_iff (g : EncGen) (n a b : Nat) :
    (∃ gens g', g.tryFork n a b = (.ok gens, g')) ↔
      0 < n ∧ 0 < a ∧ 0 < b ∧ g.mask.pos + n * a ≤ g.mask.bound ∧ g.noise.pos + n * b ≤ g.noise.bound := by
  constructor
  · rintro ⟨gens, g', h⟩
    obtain ⟨h1, h2, h3, h4, h5, _⟩ := encFork_ok h
    exact ⟨h1, h2, h3, h4, h5⟩
  · rintro ⟨h1, h2, h3, h4, h5⟩
    simp only [EncGen.tryFork, Src.tryFork]
    rw [if_neg (by omega), if_neg (by omega), if_pos h4]
    simp only
    rw [if_neg (by omega), if_neg (by omega), if_pos h5]
    exact ⟨_, _, rfl⟩

/-- The generator reading the `t`-th slice of `a` mask bytes and `b` noise bytes of `g`, and no more. -/
def EncGen.slice (g : EncGen) (a b t : Nat) : EncGen :=
  { mask := { g.mask with pos := g.mask.pos + t * a, bound := g.mask.pos + (t + 1) * a },
    noise := { g.noise with pos := g.noise.pos + t * b, bound := g.noise.pos + (t + 1) * b } }

/-- A slice of a slice. -/
theorem EncGen.slice_slice (g : EncGen) (m a b i j : Nat) :
    (g.slice (m * a) (m * b) i).slice a b j = g.slice a b (i * m + j) := by
  have e : ∀ p c t, p + i * (m * c) + (j + t) * c = p + (i * m + j + t) * c := by
    intro p c t; rw [← Nat.mul_assoc, Nat.add_assoc, ← Nat.add_mul, Nat.add_assoc]
  simp only [slice, EncGen.mk.injEq, Src.mk.injEq, true_and]
  exact ⟨⟨e _ _ 0, e _ _ 1⟩, ⟨e _ _ 0, e _ _ 1⟩⟩

/-- The outcome of a fork: the children are the consecutive slices, the parent skips them. -/
theorem encFork_eq (g : EncGen) (n a b : Nat) (h : 0 < n ∧ 0 < a ∧ 0 < b ∧
    g.mask.pos + n * a ≤ g.mask.bound ∧ g.noise.pos + n * b ≤ g.noise.bound) :
    g.tryFork n a b = (.ok ((List.range n).map (g.slice a b)),
      { mask := g.mask.skip (n * a), noise := g.noise.skip (n * b) }) := by
  obtain ⟨gens, g', e⟩ := (encFork_iff g n a b).2 h
  obtain ⟨_, _, _, _, _, rfl, rfl⟩ := encFork_ok e
  exact e

end Verif.Random
