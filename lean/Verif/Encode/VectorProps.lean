import Verif.Encode.Props
/-
C56 for vectors of encoders given by a center and a radius (encoder_vector_creation.rs:92-118).
-/
set_option exponentiation.threshold 2000
namespace Verif.Encode
open Verif.Float

/-- C56, creation of vectors from centers and radii: the errors are those of the components, the radii being all checked
before the precisions; a successful call has created every encoder from its own configuration. -/
theorem C56_create_vector_center_radius (cs : List CenterRadius) :
    ((∃ c ∈ cs, c.radius.le (.fin 0)) → createEncoderVectorCenterRadius cs = .err .nullRadius) ∧
    ((∀ c ∈ cs, c.radius.le (.fin 0) = false) → (∃ c ∈ cs, c.precision = 0) →
      createEncoderVectorCenterRadius cs = .err .nullPrecision) ∧
    (∀ es, createEncoderVectorCenterRadius cs = .ok es → es.length = cs.length ∧
      ∀ (i : ℕ) (c : CenterRadius), cs[i]? = some c → ∃ e, es[i]? = some e ∧ createEncoderCenterRadius c = .ok e) := by
  unfold createEncoderVectorCenterRadius
  refine ⟨fun h => ?_, fun h1 h2 => ?_, fun es hes => ?_⟩
  · rw [if_pos (by simpa [List.any_eq_true] using h)]
  · rw [if_neg (by simpa [List.any_eq_true] using h1), if_pos (by simpa [List.any_eq_true] using h2)]
  · split at hes
    · cases hes
    rename_i h1
    split at hes
    · cases hes
    rename_i h2
    unfold ofOption at hes
    split at hes
    · rename_i es' hm
      injection hes with hes
      subst hes
      obtain ⟨g1, g2⟩ := mapM_getElem? _ _ _ hm
      refine ⟨g1, ?_⟩
      intro i c hc
      have hmem := List.mem_of_getElem? hc
      have g3 := g2 i c hc
      have hi : i < es'.length := by
        rw [g1]
        by_contra hh
        rw [List.getElem?_eq_none (not_lt.1 hh)] at hc
        cases hc
      refine ⟨es'[i], List.getElem?_eq_getElem hi, ?_⟩
      have a1 : c.radius.le (.fin 0) = false := by
        by_contra hh
        exact h1 (List.any_eq_true.2 ⟨c, hmem, by simpa using hh⟩)
      have a2 : c.precision ≠ 0 := by
        intro hh
        exact h2 (List.any_eq_true.2 ⟨c, hmem, by simpa using hh⟩)
      unfold createEncoderCenterRadius
      rw [a1, if_neg (by simp), if_neg a2, g3, List.getElem?_eq_getElem hi]
      rfl
    · cases hes

/-- Concrete vectors of configurations: a null precision and a null radius, a null precision, and a valid one. -/
example : createEncoderVectorCenterRadius [⟨.fin 0, .fin 1, 0, 0⟩, ⟨.fin 1, .fin 0, 3, 0⟩] = .err .nullRadius ∧
    createEncoderVectorCenterRadius [⟨.fin 0, .fin 1, 0, 0⟩, ⟨.fin 0, .fin 1, 3, 0⟩] = .err .nullPrecision ∧
    createEncoderVectorCenterRadius [⟨.fin (3 / 2), .fin (3 / 2), 2, 0⟩] = .ok [⟨.fin 0, .fin 4, 2, 0, false⟩] := by
  refine ⟨?_, ?_, ?_⟩ <;> decide +kernel

/-- A vector with a radius too small for its center: the checks pass and the call panics, as for one encoder. -/
theorem C56_violated_vector_small_radius :
    createEncoderVectorCenterRadius [⟨.fin 3, .fin 1, 2, 0⟩, ⟨.fin 1, .fin (1 / 2 ^ 80), 4, 0⟩] = .panic := by decide +kernel

end Verif.Encode
