import Verif.Ntt.Lemmas
/-
Pointwise products of transforms, over a commutative ring.
-/
set_option linter.unusedSectionVars false
namespace Verif.Ntt
open Verif.Poly Polynomial

variable {F : Type} [CommRing F]

/-- Evaluation at a root of `X^N + 1`, as a morphism. -/
noncomputable def evalHom (N : Nat) (z : F) (hz : z ^ N = -1) : Rq F N →+* F :=
  AdjoinRoot.lift (RingHom.id F) z (by simp [hz])

theorem evalHom_toRq (N : Nat) (z : F) (hz : z ^ N = -1) (p : List F) :
    evalHom N z hz (toRq N p) = evalAt p z := by
  rw [evalHom, toRq, toPoly, AdjoinRoot.lift_mk, evalAt, Polynomial.eval₂_finsetSum]
  refine Finset.sum_congr rfl fun i _ => ?_
  simp

theorem mulAcc_getD (acc p r : List F) (x : Nat) (h1 : x < acc.length) (h2 : x < p.length) (h3 : x < r.length) :
    (mulAcc (ringOps F) acc p r).getD x 0 = acc.getD x 0 + p.getD x 0 * r.getD x 0 := by
  rw [mulAcc, zipUpdate_getD _ acc (p.zip r) x 0 (0, 0) h1 (by simp; omega)]
  have : (p.zip r).getD x (0, 0) = (p.getD x 0, r.getD x 0) := by
    simp only [List.getD_eq_getElem?_getD]
    rw [List.getElem?_eq_getElem h2, List.getElem?_eq_getElem h3, List.getElem?_eq_getElem (by simp; omega)]
    simp
  rw [this]
  rfl

/-- A sum of products accumulated in the transformed domain is the transform of the sum of the negacyclic
products. -/
theorem forward_sum {T : Tables F} (h : Valid T) (ps : List (List F × List F))
    (hp : ∀ x ∈ ps, x.1.length = 2 ^ T.logSize ∧ x.2.length = 2 ^ T.logSize) (s : List F)
    (hs : s.length = 2 ^ T.logSize)
    (hsum : toRq (2 ^ T.logSize) s = (ps.map fun x => toRq (2 ^ T.logSize) x.1 * toRq (2 ^ T.logSize) x.2).sum) :
    ps.foldl (fun acc x => mulAcc (ringOps F) acc (forward (ringOps F) T x.1) (forward (ringOps F) T x.2))
      (List.replicate (2 ^ T.logSize) 0) = forward (ringOps F) T s := by
  have main : ∀ (ps : List (List F × List F)) (acc : List F), acc.length = 2 ^ T.logSize →
      (∀ x ∈ ps, x.1.length = 2 ^ T.logSize ∧ x.2.length = 2 ^ T.logSize) →
      (ps.foldl (fun acc x => mulAcc (ringOps F) acc (forward (ringOps F) T x.1) (forward (ringOps F) T x.2)) acc).length =
        2 ^ T.logSize ∧
      ∀ i, i < 2 ^ T.logSize →
      (ps.foldl (fun acc x => mulAcc (ringOps F) acc (forward (ringOps F) T x.1) (forward (ringOps F) T x.2)) acc).getD i 0 =
        acc.getD i 0 + (ps.map fun x => evalAt x.1 (nodeConst T.roots (2 ^ T.logSize + i)) *
          evalAt x.2 (nodeConst T.roots (2 ^ T.logSize + i))).sum := by
    intro ps
    induction ps with
    | nil => intro acc ha _; exact ⟨ha, fun i _ => by simp⟩
    | cons x ps ih =>
      intro acc ha hx
      obtain ⟨x1, x2⟩ := hx x (List.mem_cons_self ..)
      obtain ⟨f1, f2⟩ := forward_eval h x.1 x1
      obtain ⟨g1, g2⟩ := forward_eval h x.2 x2
      obtain ⟨i1, i2⟩ := ih (mulAcc (ringOps F) acc (forward (ringOps F) T x.1) (forward (ringOps F) T x.2))
        (by rw [mulAcc, zipUpdate_length, ha]) (fun y hy => hx y (List.mem_cons_of_mem _ hy))
      refine ⟨i1, fun i hi => ?_⟩
      rw [List.foldl_cons, i2 i hi, mulAcc_getD _ _ _ _ (by omega) (by omega) (by omega), (f2 i hi).1, (g2 i hi).1,
        List.map_cons, List.sum_cons]
      ring
  obtain ⟨m1, m2⟩ := main ps (List.replicate (2 ^ T.logSize) 0) (by simp) hp
  obtain ⟨s1, s2⟩ := forward_eval h s hs
  apply list_ext_getD
  · rw [m1, s1]
  · intro i hi
    rw [m1] at hi
    obtain ⟨s3, s4⟩ := s2 i hi
    rw [m2 i hi, s3, ← evalHom_toRq _ _ s4 s, hsum, map_list_sum, List.map_map]
    have : (List.replicate (2 ^ T.logSize) (0 : F)).getD i 0 = 0 := by
      simp [List.getD_eq_getElem?_getD, hi]
    rw [this, zero_add]
    congr 1
    apply List.map_congr_left
    intro x _
    simp only [Function.comp, map_mul, evalHom_toRq]

end Verif.Ntt
