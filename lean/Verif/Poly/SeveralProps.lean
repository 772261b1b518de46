import Verif.Poly.Props
/-
C21 for sums of several polynomials (polynomial.rs:775-824).
-/
namespace Verif.Poly

variable {R : Type} [CommRing R]

/-- C21, several: adding (subtracting) the polynomials of a list adds (subtracts) their sum, coefficient by coefficient
and in `R[X]/(X^N+1)`. -/
theorem C21_several (N : Nat) (out : List R) (ps : List (List R)) (ho : out.length = N) (hp : ∀ p ∈ ps, p.length = N) :
    ((addSeveral out ps).length = N ∧
      (∀ k, k < N → (addSeveral out ps).getD k 0 = out.getD k 0 + (ps.map fun p => p.getD k 0).sum) ∧
      toRq N (addSeveral out ps) = toRq N out + (ps.map (toRq N)).sum) ∧
    ((subSeveral out ps).length = N ∧
      (∀ k, k < N → (subSeveral out ps).getD k 0 = out.getD k 0 - (ps.map fun p => p.getD k 0).sum) ∧
      toRq N (subSeveral out ps) = toRq N out - (ps.map (toRq N)).sum) := by
  induction ps generalizing out with
  | nil => simp [addSeveral, subSeveral, ho]
  | cons p ps ih =>
    have hpl : p.length = N := hp p (by simp)
    have hl : out.length = p.length := by rw [ho, hpl]
    have la : (add out p).length = N := by rw [add, zipUpdate_length, ho]
    have ls : (sub out p).length = N := by rw [sub, zipUpdate_length, ho]
    obtain ⟨⟨a1, a2, a3⟩, -⟩ := ih (add out p) la fun q hq => hp q (by simp [hq])
    obtain ⟨-, ⟨s1, s2, s3⟩⟩ := ih (sub out p) ls fun q hq => hp q (by simp [hq])
    have ga : ∀ k, k < N → (add out p).getD k 0 = out.getD k 0 + p.getD k 0 := fun k hk => by
      exact zipUpdate_getD _ _ _ _ _ _ (by omega) (by omega)
    have gs : ∀ k, k < N → (sub out p).getD k 0 = out.getD k 0 - p.getD k 0 := fun k hk => by
      exact zipUpdate_getD _ _ _ _ _ _ (by omega) (by omega)
    refine ⟨⟨a1, fun k hk => ?_, ?_⟩, ⟨s1, fun k hk => ?_, ?_⟩⟩
    · rw [show addSeveral out (p :: ps) = addSeveral (add out p) ps from rfl, a2 k hk, ga k hk, List.map_cons, List.sum_cons]
      ring
    · rw [show addSeveral out (p :: ps) = addSeveral (add out p) ps from rfl, a3, toRq_add _ _ _ hl, List.map_cons,
        List.sum_cons]
      ring
    · rw [show subSeveral out (p :: ps) = subSeveral (sub out p) ps from rfl, s2 k hk, gs k hk, List.map_cons, List.sum_cons]
      ring
    · rw [show subSeveral out (p :: ps) = subSeveral (sub out p) ps from rfl, s3, toRq_sub _ _ _ hl, List.map_cons,
        List.sum_cons]
      ring

/-- The examples of the documentation. -/
example : addSeveral [1#32, 2#32, 3#32] [[4#32, 5#32, 6#32], [7#32, 8#32, 9#32]] = [12#32, 15#32, 18#32] ∧
    subSeveral [1#32, 2#32, 3#32] [[4#32, 5#32, 6#32], [7#32, 8#32, 9#32]] = [4294967286#32, 4294967285#32, 4294967284#32] := by
  decide

end Verif.Poly
