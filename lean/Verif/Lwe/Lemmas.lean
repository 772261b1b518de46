import Verif.Lwe.Model
import Verif.Lwe.Spec
import Verif.Random.Lemmas
import Mathlib.Algebra.BigOperators.Ring.Finset
import Mathlib.Tactic.Ring
import Mathlib.Tactic.LinearCombination
set_option linter.unusedSectionVars false
namespace Verif.Lwe
open Verif.Random

section Ring
variable {R : Type} [CommRing R]

theorem foldl_mul_add (l : List (R × R)) (a : R) :
    l.foldl (fun acc p => acc + p.1 * p.2) a = a + (l.map fun p => p.1 * p.2).sum := by
  induction l generalizing a with
  | nil => simp
  | cons x l ih => rw [List.foldl_cons, ih, List.map_cons, List.sum_cons]; ring

theorem multisum_eq (mask key : List R) (h : mask.length = key.length) :
    multisum mask key = ∑ i ∈ Finset.range key.length, mask.getD i 0 * key.getD i 0 := by
  rw [multisum, foldl_mul_add, zero_add]
  induction mask generalizing key with
  | nil =>
    have : key = [] := by simpa using h.symm
    subst this; simp
  | cons a mask ih =>
    cases key with
    | nil => simp at h
    | cons k key =>
      rw [List.zip_cons_cons, List.map_cons, List.sum_cons, ih key (by simpa using h),
        List.length_cons, Finset.sum_range_succ', add_comm]
      rfl

theorem phase_append (s mask : List R) (b : R) (h : mask.length = s.length) :
    phase s (mask ++ [b]) = b - multisum mask s := by
  rw [phase, multisum_eq mask s h]
  congr 1
  · rw [← h]; simp
  · apply Finset.sum_congr rfl
    intro i hi
    have : i < mask.length := by rw [h]; exact Finset.mem_range.1 hi
    simp only [List.getD_eq_getElem?_getD, List.getElem?_append_left this]

theorem exists_split {s ct : List R} (h : Fits s ct) :
    ∃ mask b, ct = mask ++ [b] ∧ mask.length = s.length := by
  have hne : ct ≠ [] := by intro e; rw [e] at h; simp [Fits] at h
  refine ⟨ct.dropLast, ct.getLast hne, (List.dropLast_append_getLast hne).symm, ?_⟩
  rw [List.length_dropLast, h]; rfl

theorem decryptLwe_eq {s ct : List R} (h : Fits s ct) : decryptLwe s ct = some (phase s ct) := by
  obtain ⟨mask, b, rfl, hm⟩ := exists_split h
  rw [phase_append s mask b hm]
  simp [decryptLwe]

/-- Linearity of the phase, coefficientwise form. -/
theorem phase_lin {s x y z : List R} (α β : R)
    (hc : ∀ i, i ≤ s.length → z.getD i 0 = α * x.getD i 0 + β * y.getD i 0) :
    phase s z = α * phase s x + β * phase s y := by
  simp only [phase]
  rw [hc _ (Nat.le_refl _)]
  have e : ∑ i ∈ Finset.range s.length, z.getD i 0 * s.getD i 0 =
      α * ∑ i ∈ Finset.range s.length, x.getD i 0 * s.getD i 0 +
      β * ∑ i ∈ Finset.range s.length, y.getD i 0 * s.getD i 0 := by
    rw [Finset.mul_sum, Finset.mul_sum, ← Finset.sum_add_distrib]
    apply Finset.sum_congr rfl
    intro i hi
    rw [hc i (Finset.mem_range.1 hi).le]; ring
  rw [e]; ring

theorem phase_zipUpdate {s x y : List R} (α β : R) (hx : Fits s x) (hy : Fits s y) :
    phase s (zipUpdate (fun a b => α * a + β * b) x y) = α * phase s x + β * phase s y :=
  phase_lin α β fun i hi => zipUpdate_getD _ x y i 0 0 (by rw [hx]; omega) (by rw [hy]; omega)

theorem fits_zipUpdate {s x y : List R} (f : R → R → R) (hx : Fits s x) :
    Fits s (zipUpdate f x y) := by rw [Fits, zipUpdate_length]; exact hx

theorem phase_add {s x y : List R} (hx : Fits s x) (hy : Fits s y) :
    phase s (updateWithAdd x y) = phase s x + phase s y := by
  have e : updateWithAdd x y = zipUpdate (fun a b => 1 * a + 1 * b) x y := by simp [updateWithAdd]
  rw [e, phase_zipUpdate 1 1 hx hy]; ring

theorem phase_sub {s x y : List R} (hx : Fits s x) (hy : Fits s y) :
    phase s (updateWithSub x y) = phase s x - phase s y := by
  have e : updateWithSub x y = zipUpdate (fun a b => 1 * a + (-1) * b) x y := by
    simp only [updateWithSub]; congr 1; funext a b; ring
  rw [e, phase_zipUpdate 1 (-1) hx hy]; ring

theorem phase_mulAdd {s x y : List R} (d : R) (hx : Fits s x) (hy : Fits s y) :
    phase s (zipUpdate (fun a c => a + c * d) x y) = phase s x + phase s y * d := by
  have e : (fun a c : R => a + c * d) = (fun a b => 1 * a + d * b) := by funext a b; ring
  rw [e, phase_zipUpdate 1 d hx hy]; ring

theorem phase_subElementMul {s x y : List R} (d : R) (hx : Fits s x) (hy : Fits s y) :
    phase s (subElementMul x y d) = phase s x + -(phase s y * d) := by
  have e : (fun a c : R => a - c * d) = (fun a b => 1 * a + (-d) * b) := by funext a b; ring
  rw [subElementMul, e, phase_zipUpdate 1 (-d) hx hy]; ring

theorem getD_map_zero (f : R → R) (hf : f 0 = 0) (l : List R) (i : Nat) :
    (l.map f).getD i 0 = f (l.getD i 0) := by
  simp only [List.getD_eq_getElem?_getD, List.getElem?_map]
  cases l[i]? <;> simp [hf]

theorem phase_map {s x : List R} (d : R) : phase s (x.map fun a => a * d) = phase s x * d := by
  have := phase_lin (s := s) (x := x) (y := x) (z := x.map fun a => a * d) d 0 (fun i _ => by
    rw [getD_map_zero (fun a => a * d) (by simp)]; ring)
  rw [this]; ring

theorem phase_neg {s x : List R} : phase s (updateWithNeg x) = - phase s x := by
  have e : updateWithNeg x = x.map (fun a => a * (-1)) := by
    simp only [updateWithNeg]; congr 1; funext a; ring
  rw [e, phase_map]; ring

theorem addToBody_eq {s x : List R} (p : R) (hx : Fits s x) :
    ∃ r, addToBody x p = some r ∧ Fits s r ∧ phase s r = phase s x + p := by
  obtain ⟨mask, b, rfl, hm⟩ := exists_split hx
  refine ⟨mask ++ [b + p], by simp [addToBody], by simp [Fits, hm], ?_⟩
  rw [phase_append s mask _ hm, phase_append s mask _ hm]; ring

theorem subFromBody_eq {s x : List R} (p : R) (hx : Fits s x) :
    ∃ r, subFromBody x p = some r ∧ Fits s r ∧ phase s r = phase s x - p := by
  obtain ⟨mask, b, rfl, hm⟩ := exists_split hx
  refine ⟨mask ++ [b - p], by simp [subFromBody], by simp [Fits, hm], ?_⟩
  rw [phase_append s mask _ hm, phase_append s mask _ hm]; ring

theorem multisum_zero (n : Nat) (s : List R) : multisum (List.replicate n 0) s = 0 := by
  rw [multisum, foldl_mul_add, zero_add]
  induction n generalizing s with
  | zero => simp
  | succ n ih =>
    cases s with
    | nil => simp
    | cons a s => simp [List.replicate_succ, ih s]

theorem fillWithMultisum_phase {s out : List R} (inputs : List (List R)) (weights : List R) (bias : R)
    (ho : Fits s out) (hi : ∀ c ∈ inputs, Fits s c) :
    ∃ r, fillWithMultisumWithBias out inputs weights bias = some r ∧ Fits s r ∧
      phase s r = phase s out + ((inputs.zip weights).map fun p => phase s p.1 * p.2).sum + bias := by
  obtain ⟨h1, h2⟩ := foldl_measure
    (fun (o : List R) (p : List R × R) => zipUpdate (fun a c => a + c * p.2) o p.1)
    (Fits s) (phase s) (fun p => phase s p.1 * p.2) (inputs.zip weights) out ho (by
      intro o p hp hfo
      exact ⟨fits_zipUpdate _ hfo, phase_mulAdd p.2 hfo (hi _ (List.of_mem_zip hp).1)⟩)
  obtain ⟨r, e, hr, hp⟩ := addToBody_eq bias h1
  exact ⟨r, e, hr, by rw [hp, h2]⟩

theorem sum_zip_eq (f : List R → R) (inputs : List (List R)) (weights : List R)
    (h : inputs.length = weights.length) :
    ((inputs.zip weights).map fun p => f p.1 * p.2).sum =
      ∑ i ∈ Finset.range weights.length, weights.getD i 0 * f (inputs.getD i []) := by
  induction inputs generalizing weights with
  | nil =>
    have : weights = [] := by simpa using h.symm
    subst this; simp
  | cons c cs ih =>
    cases weights with
    | nil => simp at h
    | cons x xs =>
      rw [List.zip_cons_cons, List.map_cons, List.sum_cons, ih xs (by simpa using h),
        List.length_cons, Finset.sum_range_succ', add_comm]
      simp [mul_comm]

end Ring

section Words
variable {w : Nat}

theorem rep_length {A : Type} (s : Samp A) : ∀ (n : Nat) (g : Src) (xs : List A) (g' : Src),
    rep n s g = some (xs, g') → xs.length = n
  | 0, g, xs, g', h => by
    simp only [rep, Option.some.injEq, Prod.mk.injEq] at h
    rw [← h.1]; rfl
  | n + 1, g, xs, g', h => by
    simp only [rep] at h
    split at h
    · cases h
    · split at h
      · cases h
      · rename_i as g'' e
        simp only [Option.some.injEq, Prod.mk.injEq] at h
        rw [← h.1, List.length_cons, rep_length s n _ _ _ e]

/-- What an encryption does, step by step. -/
theorem encryptLwe_eq {f : GaussianFn w} {key out : List (BitVec w)} {msg : BitVec w} {g g' : EncGen}
    {ct : List (BitVec w)} (h : encryptLwe f key out msg g = some (ct, g')) :
    ∃ mask e, rep (out.length - 1) (uniform w) g.mask = some (mask, g'.mask) ∧
      randomNoise f g.noise = some (e, g'.noise) ∧ mask.length = out.length - 1 ∧
      ct = mask ++ [e + multisum mask key + msg] ∧ out.length ≠ 0 := by
  simp only [encryptLwe] at h
  split at h
  · cases h
  · rename_i hne
    simp only [fillMaskAndBody] at h
    split at h
    · cases h
    · rename_i mask body gg e
      split at e
      · cases e
      · rename_i mask' gm em
        split at e
        · cases e
        · rename_i x gn en
          simp only [Option.some.injEq, Prod.mk.injEq] at e h
          obtain ⟨rfl, rfl, rfl⟩ := e
          obtain ⟨rfl, rfl⟩ := h
          exact ⟨mask', x, em, en, rep_length _ _ _ _ _ em, rfl, hne⟩

theorem encryptLwe_phase {f : GaussianFn w} {key out : List (BitVec w)} {msg : BitVec w}
    {g g' : EncGen} {ct : List (BitVec w)} (ho : Fits key out)
    (h : encryptLwe f key out msg g = some (ct, g')) :
    ∃ e, randomNoise f g.noise = some (e, g'.noise) ∧ Fits key ct ∧ phase key ct = msg + e := by
  obtain ⟨mask, e, hm, hn, hl, rfl, _⟩ := encryptLwe_eq h
  have hlen : mask.length = key.length := by rw [hl, ho]; rfl
  refine ⟨e, hn, by simp [Fits, hlen], ?_⟩
  rw [phase_append key mask _ hlen]; ring

/-- An encryption needs `n` words of mask and a noise sample, nothing else. -/
theorem encryptLwe_ok (f : GaussianFn w) (key out : List (BitVec w)) (msg : BitVec w) (g : EncGen)
    (ho : Fits key out) (hm : g.mask.pos + key.length * (w / 8) ≤ g.mask.bound)
    (e : BitVec w) (gn : Src) (hn : randomNoise f g.noise = some (e, gn)) :
    ∃ ct, encryptLwe f key out msg g =
      some (ct, { mask := g.mask.skip (key.length * (w / 8)), noise := gn }) := by
  have hl : out.length - 1 = key.length := by rw [ho]; rfl
  have h0 : out.length ≠ 0 := by rw [ho]; omega
  rw [encryptLwe, if_neg h0, fillMaskAndBody, hl, rep_uniform _ _ _ (by omega), if_pos hm]
  simp only [hn]
  exact ⟨_, rfl⟩

end Words
end Verif.Lwe
