import Verif.Wop.Props2
import Verif.Pbs.Examples
/-
The hypotheses of C43 and C44 are satisfiable, and the tree and the packing evaluated on concrete inputs.
-/
namespace Verif.Wop
open Verif Verif.Poly Verif.Glwe Verif.Pbs Verif.Decomp

variable {w : Nat}

/-- Noiseless GGSW encryptions of any list of bits exist. -/
theorem exists_bits (N k b l : Nat) (hN : 0 < N) (key : List (BitVec w)) (bits : List Bool) :
    BitsEnc N k b l key (bits.map fun β => gadgetGgsw N k b l ((β.toNat : Int) : BitVec w)) bits 0 := by
  refine ⟨by simp, fun i hi => ⟨fun _ _ => 0, fun _ _ _ _ => Poly.small_zero N 0 le_rfl, ?_⟩⟩
  rw [List.getD_eq_getElem?_getD, List.getD_eq_getElem?_getD, List.getElem?_map, List.getElem?_eq_getElem hi]
  simp only [Option.map_some, Option.getD_some]
  have h := gadget_enc N k b l hN key (((bits[i].toNat : Nat) : Int) : BitVec w)
  cases hb : bits[i]
  · rw [hb, Bool.toNat_false, Nat.cast_zero, Int.cast_zero, map_zero] at h
    exact h
  · rw [hb, Bool.toNat_true, Nat.cast_one, Int.cast_one, map_one] at h
    exact h

/-- C43 on four constant tables and the bits 1, 0: the third table is selected. -/
example : cmuxTree .debug (fun g o c => externalProduct (exactTransform 8 2) 2 1 3 2 o g c) 2 1 (List.replicate 4 0#8)
    [[8, 16], [24, 32], [40, 48], [56, 64]]
    ([true, false].map fun β => convert (exactTransform 8 2) 2 (gadgetGgsw 2 1 3 2 ((β.toNat : Int) : BitVec 8))) =
    some [0, 0, 40, 48] := by
  decide +kernel

/-- C44 on the flat table `8, 16, ..., 64` and the bits 1, 0, 1: the entry 5. -/
example : verticalPacking .debug (fun g o c => externalProduct (exactTransform 64 2) 2 1 3 4 o g c) 2 1
    [[8#64 <<< 56, 16#64 <<< 56], [24#64 <<< 56, 32#64 <<< 56], [40#64 <<< 56, 48#64 <<< 56], [56#64 <<< 56, 64#64 <<< 56]]
    (List.replicate 3 0#64)
    ([true, false, true].map fun β => convert (exactTransform 64 2) 2 (gadgetGgsw 2 1 3 4 ((β.toNat : Int) : BitVec 64))) =
    some [0#64, 0, 48#64 <<< 56] := by
  decide +kernel

/-- The same in 32 bits and a release build: the wrong entry (entry 1 of the first polynomial). -/
example : verticalPacking .release (fun g o c => externalProduct (exactTransform 32 2) 2 1 3 4 o g c) 2 1
    [[8#32 <<< 24, 16#32 <<< 24], [24#32 <<< 24, 32#32 <<< 24], [40#32 <<< 24, 48#32 <<< 24], [56#32 <<< 24, 64#32 <<< 24]]
    (List.replicate 3 0#32)
    ([true, false, true].map fun β => convert (exactTransform 32 2) 2 (gadgetGgsw 2 1 3 4 ((β.toNat : Int) : BitVec 32))) =
    some [0#32, 0, 16#32 <<< 24] := by
  decide +kernel

/-- The hypotheses of C43 and C44 hold together for concrete parameters. -/
example : ∃ ggsws : List (List (BitVec 64)), BitsEnc 2 1 3 4 [1, 1] ggsws [true, false, true] 0 ∧
    ValidParams 64 3 4 ∧ KeyFits 2 1 [1#64, 1] ∧ KeyBound 1 [1#64, 1] ∧
    (exactTransform 64 2).Accurate 2 (4 * (1 + 1)) 4 0 := by
  refine ⟨_, exists_bits 2 1 3 4 (by decide) _ _, ⟨by decide, by decide, by decide⟩, rfl, ?_,
    exact_accurate _ _ (by decide) _⟩
  intro x hx
  simp only [List.mem_cons, List.not_mem_nil, or_false] at hx
  rcases hx with rfl | rfl <;> decide

end Verif.Wop
