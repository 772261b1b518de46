import Verif.Npe.ExtSpec
import Verif.Npe.Digits
import Verif.Npe.KeyProps
import Verif.Npe.KeyswitchProps
import Verif.Ntt.Switch
import Verif.Pbs.Props
/-
Helper lemmas for C99.
-/
namespace Verif.Npe
open Verif.Poly Verif.Decomp Verif.BV Verif.Glwe Verif.Lwe Dist

variable {w N k l : Nat} {α κ ε : Type} [Fintype α] [Fintype κ] [Fintype ε]

/-! ### Polynomials with integer coefficients -/

theorem polyOf_eq (z : Fin N → Int) : polyOf w z =
    ∑ i : Fin N, AdjoinRoot.of _ ((z i : Int) : BitVec w) * Xq (BitVec w) N ^ (i : Nat) := by
  rw [polyOf, toRq_sum, List.length_ofFn, Finset.sum_range]
  refine Finset.sum_congr rfl fun i _ => ?_
  simp [List.getD_eq_getElem?_getD]

theorem polyOf_add (x y : Fin N → Int) : polyOf w (fun i => x i + y i) = polyOf w x + polyOf w y := by
  simp only [polyOf_eq, ← Finset.sum_add_distrib]
  refine Finset.sum_congr rfl fun i _ => ?_
  push_cast; rw [map_add]; ring

theorem polyOf_sub (x y : Fin N → Int) : polyOf w (fun i => x i - y i) = polyOf w x - polyOf w y := by
  simp only [polyOf_eq, ← Finset.sum_sub_distrib]
  refine Finset.sum_congr rfl fun i _ => ?_
  push_cast; rw [map_sub]; ring

theorem polyOf_zero : polyOf w (fun _ : Fin N => 0) = 0 := by
  rw [polyOf_eq]
  refine Finset.sum_eq_zero fun i _ => ?_
  rw [Int.cast_zero, map_zero, zero_mul]

theorem polyOf_sum {ι : Type} (s : Finset ι) (x : ι → Fin N → Int) :
    polyOf w (fun i => ∑ t ∈ s, x t i) = ∑ t ∈ s, polyOf w (x t) := by
  simp only [polyOf_eq]
  rw [Finset.sum_comm]
  refine Finset.sum_congr rfl fun i _ => ?_
  push_cast; rw [map_sum, Finset.sum_mul]

/-- The negacyclic product of two families of coefficients. -/
def conv (p q : Fin N → Int) (c : Fin N) : Int := negaConv N (List.ofFn p) (List.ofFn q) c

theorem polyOf_mul (hN : 0 < N) (p q : Fin N → Int) : polyOf w p * polyOf w q = polyOf w (conv p q) := by
  have hm : ∀ z : Fin N → Int, (List.ofFn z).map (fun c : Int => (c : BitVec w)) =
      List.ofFn fun i => ((z i : Int) : BitVec w) := by
    intro z; rw [List.map_ofFn]; rfl
  rw [polyOf, polyOf, polyOf, ← hm, ← hm, ← Ntt.toRq_conv N hN _ _ (by simp) (by simp)]
  congr 1
  apply List.ext_getElem (by simp)
  intro i h1 h2
  simp only [List.getElem_map, List.getElem_range, List.getElem_ofFn]
  rw [negaConv_cast]; rfl

theorem conv_rat (p q : Fin N → Int) (c : Fin N) :
    (conv p q c : ℚ) = ∑ i : Fin N, eps c i * ((p i : ℚ) * (q (partner c i) : ℚ)) := by
  have hm : ∀ z : Fin N → Int, (List.ofFn z).map (fun c : Int => (c : ℚ)) =
      List.ofFn fun i => ((z i : Int) : ℚ) := by
    intro z; rw [List.map_ofFn]; rfl
  rw [conv, ← negaConv_cast, hm, hm, negaConv_eq c c.2]

theorem conv_abs (p q : Fin N → Int) (A B : Int) (hA : 0 ≤ A) (hB : 0 ≤ B) (hp : ∀ i, |p i| ≤ A)
    (hq : ∀ i, |q i| ≤ B) (c : Fin N) : |conv p q c| ≤ N * (A * B) :=
  negaConv_abs N _ _ A B hA hB (by simpa [List.mem_ofFn] using hp) (by simpa [List.mem_ofFn] using hq) c c.2

theorem block_ofFn {α : Type} {m N : Nat} (hN : 0 < N) (f : Fin m → Fin N → α) (i : Fin m) :
    block N (List.ofFn fun i => List.ofFn (f i)).flatten i = List.ofFn (f i) := by
  apply block_flatten N hN
  · intro x hx
    obtain ⟨j, rfl⟩ := (List.mem_ofFn).1 hx
    simp
  · simp

theorem small_zero_eq {x : Rq (BitVec w) N} (h : Small N 0 x) : x = 0 := by
  obtain ⟨z, hl, hz, rfl⟩ := h
  have : z.map (fun c : Int => (c : BitVec w)) = List.replicate z.length 0 := by
    apply List.eq_replicate_iff.2 ⟨by simp, ?_⟩
    intro b hb
    obtain ⟨c, hc, rfl⟩ := List.mem_map.1 hb
    rw [abs_nonpos_iff.1 (hz c hc)]; simp
  rw [this, toRq_zero]

/-! ### The noise -/

/-- The digit of the model. -/
theorem digit_eq (b : Nat) (hv : ValidParams w b l) (x : BitVec w) (j : Nat) :
    (digits b l (closestRepresentable b l x >>> (w - b * l))).getD j 0#w = ksDigit b l x j := by
  have hc := (C08_closest_representable b l hv x).1
  rw [ksDigit, (C08_closest_representable b l hv (closestRepresentable b l x)).2.2.2 hc]

/-- The rounding part of the noise. -/
def roundNoise (b : Nat) (X : κ → Int) (ω : EpSample w N k l α κ ε) (c : Fin N) : Int :=
  (∑ i : Fin k, conv (fun a => roundErr b l (ω.ct i.castSucc a)) (fun a => X (ω.key i a)) c) -
    roundErr b l (ω.ct (Fin.last k) c)

/-- The part of the noises of the rows. -/
def rowsNoise (b : Nat) (e : ε → Int) (ω : EpSample w N k l α κ ε) (c : Fin N) : Int :=
  ∑ j : Fin l, ∑ r : Fin (k + 1), conv (fun a => e (ω.rows j r a))
    (fun a => (ksDigit b l (ω.ct r a) (l - 1 - j)).toInt) c

/-- The noise of the external product. -/
def epNoise (b : Nat) (X : κ → Int) (e₀ : α → Int) (e : ε → Int) (ω : EpSample w N k l α κ ε) (c : Fin N) :
    Int :=
  (if ω.bit then e₀ (ω.noise c) + roundNoise b X ω c else 0) + rowsNoise b e ω c

omit [Fintype α] [Fintype κ] [Fintype ε] in
theorem ep_phase (T : Pbs.Transform w) (b : Nat) (hN : 0 < N) (D : Int) (hT : T.Accurate N (l * (k + 1)) D 0)
    (hD : 2 ^ (b - 1) ≤ D) (h : ValidParams w b l) (X : κ → Int) (e₀ : α → Int) (e : ε → Int)
    (ω : EpSample w N k l α κ ε) (out ggsw : List (BitVec w)) (ho : CtFits N k out)
    (hg : GgswEnc N k b l (ω.keyList X) ggsw ω.bitPoly (ω.err e)) :
    glwePhase N k (ω.keyList X) (Pbs.externalProduct T N k b l out (Pbs.convert T N ggsw) ω.ctList) =
      glwePhase N k (ω.keyList X) out +
        ω.bitPoly * (glwePhase N k (ω.keyList X) ω.ctList - polyOf w fun c => e₀ (ω.noise c)) +
        polyOf w (epNoise b X e₀ e ω) := by
  have hc : CtFits N k ω.ctList := by
    rw [CtFits, EpSample.ctList, flatten_length_uniform N]
    · simp
    · intro x hx
      obtain ⟨j, rfl⟩ := (List.mem_ofFn).1 hx
      simp
  obtain ⟨-, δ, hδ, hp⟩ := Pbs.externalProduct_phase T N k b l hN D 0 hT hD h (ω.keyList X) out ggsw
    ω.ctList ho hc hg.1
  have hp2 := Pbs.external_phase_enc N k b l h (ω.keyList X) out ggsw ω.ctList _ ω.bitPoly (ω.err e) δ hc hg hp
  have hδ0 : ∀ p, p < k + 1 → δ p = 0 := fun p hp => small_zero_eq (hδ p hp)
  rw [hp2, hδ0 k (by omega), Finset.sum_eq_zero (s := Finset.range k) (fun i hi => by
    rw [hδ0 i (by have := Finset.mem_range.1 hi; omega), zero_mul]), sub_zero, add_zero]
  -- the rows
  have hmap : ∀ (f : BitVec w → BitVec w) (r : Fin (k + 1)), block N (ω.ctList.map f) r =
      List.ofFn fun a => f (ω.ct r a) := by
    intro f r
    have : ω.ctList.map f = (List.ofFn fun r => List.ofFn fun a => f (ω.ct r a)).flatten := by
      rw [EpSample.ctList, List.map_flatten, List.map_ofFn]
      congr 2
      funext r
      rw [Function.comp, List.map_ofFn]
      rfl
    rw [this]
    exact block_ofFn hN (fun r a => f (ω.ct r a)) r
  have hrows : ∑ j ∈ Finset.range l, ∑ r ∈ Finset.range (k + 1),
      Pbs.digitPoly N b l ω.ctList j r * ω.err e j r = polyOf w (rowsNoise b e ω) := by
    have : rowsNoise b e ω = fun c => ∑ j : Fin l, ∑ r : Fin (k + 1), conv (fun a => e (ω.rows j r a))
      (fun a => (ksDigit b l (ω.ct r a) (l - 1 - j)).toInt) c := rfl
    rw [this, polyOf_sum, Finset.sum_range]
    refine Finset.sum_congr rfl fun j _ => ?_
    rw [polyOf_sum, Finset.sum_range]
    refine Finset.sum_congr rfl fun r _ => ?_
    rw [← polyOf_mul hN, mul_comm,
      EpSample.err, dif_pos ⟨j.2, r.2⟩, Pbs.digitPoly, hmap]
    congr 1
    rw [polyOf]
    congr 2
    funext a
    rw [digit_eq b h, intCast_toInt]
  -- the rounding
  have hround : glwePhase N k (ω.keyList X) (ω.ctList.map (closestRepresentable b l)) =
      glwePhase N k (ω.keyList X) ω.ctList + polyOf w (roundNoise b X ω) := by
    have hkey : ∀ i : Fin k, toRq N (block N (ω.keyList X) i) = polyOf w fun a => X (ω.key i a) := by
      intro i
      rw [EpSample.keyList, block_ofFn hN (fun i a => ((X (ω.key i a) : Int) : BitVec w)) i, polyOf]
    have hct : ∀ r : Fin (k + 1), toRq N (block N (ω.ctList.map (closestRepresentable b l)) r) =
        toRq N (block N ω.ctList r) - polyOf w fun a => roundErr b l (ω.ct r a) := by
      intro r
      have h1 := hmap id r
      rw [List.map_id] at h1
      rw [hmap, h1, polyOf, ← toRq_sub N _ _ (by simp), Poly.sub, zipUpdate_eq_zipWith _ _ _ (by simp)]
      congr 1
      apply List.ext_getElem (by simp)
      intro i h1 h2
      simp only [List.getElem_zipWith, List.getElem_ofFn, id, roundErr, signedDiff, intCast_toInt]
      ring
    have hrn : roundNoise b X ω = fun c => (∑ i : Fin k, conv (fun a => roundErr b l (ω.ct i.castSucc a))
      (fun a => X (ω.key i a)) c) - roundErr b l (ω.ct (Fin.last k) c) := rfl
    rw [glwePhase, glwePhase, hrn, polyOf_sub, polyOf_sum, Finset.sum_range, Finset.sum_range]
    have hl := hct (Fin.last k)
    rw [Fin.val_last] at hl
    rw [hl, Finset.sum_congr rfl (g := fun i : Fin k => toRq N (block N ω.ctList i) *
      toRq N (block N (ω.keyList X) i) - polyOf w (conv (fun a => roundErr b l (ω.ct i.castSucc a))
        (fun a => X (ω.key i a)))) (fun i _ => by
        have := hct i.castSucc
        rw [Fin.val_castSucc] at this
        rw [this, sub_mul, hkey, polyOf_mul hN]), Finset.sum_sub_distrib]
    ring
  have hen : epNoise b X e₀ e ω = fun c => (if ω.bit then e₀ (ω.noise c) + roundNoise b X ω c else 0) +
    rowsNoise b e ω c := rfl
  rw [hrows, hround, hen, polyOf_add]
  cases hb : ω.bit
  · simp only [EpSample.bitPoly, hb, Bool.false_eq_true, if_false]
    rw [polyOf_zero]; ring
  · simp only [EpSample.bitPoly, hb, if_true]
    rw [polyOf_add]; ring

/-! ### Bounds -/

omit [Fintype α] [Fintype κ] [Fintype ε] in
theorem epNoise_bound (b : Nat) (hv : ValidParams w b l) (X : κ → Int) (e₀ : α → Int) (e : ε → Int)
    (A₀ A₁ A₂ : Nat) (h₀ : ∀ x, |e₀ x| ≤ A₀) (h₁ : ∀ x, |X x| ≤ A₁) (h₂ : ∀ x, |e x| ≤ A₂)
    (ω : EpSample w N k l α κ ε) (c : Fin N) :
    |epNoise b X e₀ e ω c| ≤ A₀ + (k * (N * A₁) + 1) * 2 ^ (w - b * l - 1) +
      l * ((k + 1) * (N * (A₂ * 2 ^ (b - 1)))) := by
  have hr : ∀ x : BitVec w, |roundErr b l x| ≤ 2 ^ (w - b * l - 1) := by
    intro x
    obtain ⟨-, g1, g2⟩ := closest_signed b l hv x
    rw [roundErr, abs_le]
    exact ⟨g1, g2.le⟩
  have hround : |roundNoise b X ω c| ≤ (k * (N * A₁) + 1) * 2 ^ (w - b * l - 1) := by
    refine (abs_sub _ _).trans ?_
    have h3 : |∑ i : Fin k, conv (fun a => roundErr b l (ω.ct i.castSucc a)) (fun a => X (ω.key i a)) c| ≤
        k * (N * (2 ^ (w - b * l - 1) * A₁)) := by
      refine (Finset.abs_sum_le_sum_abs _ _).trans ((Finset.sum_le_card_nsmul Finset.univ _
        (N * (2 ^ (w - b * l - 1) * A₁) : Int) (fun i _ => ?_)).trans (by simp))
      exact conv_abs _ _ _ _ (by positivity) (by positivity) (fun a => hr _) (fun a => h₁ _) c
    refine (add_le_add h3 (hr _)).trans (le_of_eq (by ring))
  have hrows : |rowsNoise b e ω c| ≤ l * ((k + 1) * (N * (A₂ * 2 ^ (b - 1)))) := by
    refine (Finset.abs_sum_le_sum_abs _ _).trans ((Finset.sum_le_card_nsmul Finset.univ _
        ((k + 1) * (N * (A₂ * 2 ^ (b - 1))) : Int) (fun j _ => ?_)).trans (by simp))
    refine (Finset.abs_sum_le_sum_abs _ _).trans ((Finset.sum_le_card_nsmul Finset.univ _
        ((N * (A₂ * 2 ^ (b - 1))) : Int) (fun r _ => ?_)).trans (by simp))
    refine conv_abs _ _ _ _ (by positivity) (by positivity) (fun a => h₂ _) (fun a => ?_) c
    have := Pbs.digit_bound b l hv (ω.ct r a) (l - 1 - j) (by have := j.2; omega)
    rwa [digit_eq b hv] at this
  rw [epNoise]
  refine (abs_add_le _ _).trans (add_le_add ?_ hrows)
  split
  · exact (abs_add_le _ _).trans (add_le_add (h₀ _) hround)
  · rw [abs_zero]; positivity

end Verif.Npe
