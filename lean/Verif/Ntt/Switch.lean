import Verif.Ntt.Refine
import Verif.Poly.Small
import Verif.Util.BitVecRing
/-
Switching between the torus and `ZMod q`, and the accuracy of products computed through the NTT.
-/
set_option linter.unusedSectionVars false
namespace Verif.Ntt
open Verif.Poly Verif.BV

variable {W w : Nat}

theorem Suits.sq {q : BitVec W} (h : Suits w q) : 2 ^ w * 2 ^ w ≤ 2 ^ W := by
  rw [← pow_add]; exact Nat.pow_le_pow_right (by decide) (by have := h.room; omega)

theorem Suits.toRoom {q : BitVec W} (h : Suits w q) : Room q :=
  ⟨h.pos, (Nat.mul_le_mul h.lt.le h.lt.le).trans h.sq⟩

theorem half_pow (hw : 0 < w) : 2 * 2 ^ (w - 1) = 2 ^ w := by
  rw [← pow_succ', show w - 1 + 1 = w by omega]

/-- The rounded value of `x * q / 2^w`. -/
def roundInto (w : Nat) (Q x : Nat) : Nat := (x * Q + 2 ^ (w - 1)) / 2 ^ w

theorem into_no_overflow {q : BitVec W} (h : Suits w q) (x : BitVec w) :
    x.toNat * q.toNat + 2 ^ (w - 1) < 2 ^ W := by
  have := h.sq; have := h.lt; have := h.pos; have := x.isLt; have := half_pow h.wpos
  have : x.toNat * q.toNat ≤ (2 ^ w - 1) * (2 ^ w - 1) := Nat.mul_le_mul (by omega) (by omega)
  have e : (2 ^ w - 1) * (2 ^ w - 1) + 2 * 2 ^ w = 2 ^ w * 2 ^ w + 1 := by
    obtain ⟨m, hm⟩ : ∃ m, 2 ^ w = m + 1 := ⟨2 ^ w - 1, by omega⟩
    rw [hm]; simp only [Nat.add_sub_cancel]; ring
  omega

theorem into_val {q : BitVec W} (h : Suits w q) (a : ModQ W) (ha : a.q = q) (x : BitVec w) :
    (a.modSwitchInto x).val.toNat = roundInto w q.toNat x.toNat % q.toNat ∧ (a.modSwitchInto x).q = q := by
  have h1 := into_no_overflow h x
  have hx : x.toNat < 2 ^ W := x.isLt.trans_le (Nat.pow_le_pow_right (by decide) (by have := h.room; omega))
  have hw : 2 ^ (w - 1) < 2 ^ W := by omega
  have hw1 : 1 < 2 ^ W := lt_of_le_of_lt Nat.one_le_two_pow hw
  refine ⟨?_, ha⟩
  rw [ModQ.modSwitchInto, ModQ.set, ha]
  simp only [BitVec.toNat_umod, BitVec.toNat_ushiftRight, BitVec.toNat_add, BitVec.toNat_mul,
    BitVec.toNat_setWidth, BitVec.toNat_shiftLeft, BitVec.toNat_ofNat]
  rw [Nat.mod_eq_of_lt hx, Nat.mod_eq_of_lt hw1, Nat.shiftLeft_eq, one_mul, Nat.mod_eq_of_lt hw,
    Nat.mod_eq_of_lt (lt_of_le_of_lt (Nat.le_add_right _ _) h1), Nat.mod_eq_of_lt h1, Nat.shiftRight_eq_div_pow, roundInto]

theorem into_rel {q : BitVec W} (h : Suits w q) (a : ModQ W) (ha : a.q = q) (x : BitVec w) :
    Rel q (a.modSwitchInto x) (((roundInto w q.toNat x.toNat : Nat) : Int) : ZMod q.toNat) := by
  obtain ⟨h1, h2⟩ := into_val h a ha x
  have := h.pos
  exact ⟨h2, by rw [h1]; exact Nat.mod_lt _ (by omega), by rw [h1, ZMod.natCast_mod]; simp⟩

/-- `roundInto` is a nearest integer. -/
theorem roundInto_near (hw : 0 < w) (Q x : Nat) :
    |2 * ((roundInto w Q x : Nat) * 2 ^ w - (x : Int) * Q)| ≤ 2 ^ w := by
  have h1 := Nat.div_add_mod (x * Q + 2 ^ (w - 1)) (2 ^ w)
  have h2 := Nat.mod_lt (x * Q + 2 ^ (w - 1)) (show 0 < 2 ^ w by positivity)
  have h3 := half_pow hw
  rw [roundInto]
  generalize (x * Q + 2 ^ (w - 1)) / 2 ^ w = d at *
  generalize (x * Q + 2 ^ (w - 1)) % 2 ^ w = m at *
  have e : ((2 : Int) ^ w * d + m = x * Q + 2 ^ (w - 1)) := by exact_mod_cast h1
  have h3' : (2 : Int) * 2 ^ (w - 1) = 2 ^ w := by exact_mod_cast h3
  have h2' : (m : Int) < 2 ^ w := by exact_mod_cast h2
  have e2 : (d : Int) * 2 ^ w - x * Q = 2 ^ (w - 1) - m := by linarith
  rw [e2, abs_le]
  constructor <;> omega

/-- Small signed values are lifted exactly. -/
theorem roundInto_small {Q : Nat} (hw : 0 < w) (hQ : Q < 2 ^ w) (x : BitVec w)
    (hx : |x.toInt| * (2 ^ w - Q) < 2 ^ (w - 1)) :
    (((roundInto w Q x.toNat : Nat) : Int) : ZMod Q) = (x.toInt : ZMod Q) := by
  have hp := half_pow hw
  have hc : (0 : Int) ≤ 2 ^ w - Q := by
    have : ((Q : Nat) : Int) < 2 ^ w := by exact_mod_cast hQ
    omega
  by_cases hneg : x.toInt < 0
  · have hxn : (x.toNat : Int) = x.toInt + 2 ^ w := by
      rw [BitVec.toInt_eq_toNat_cond] at hneg ⊢
      split at hneg
      · omega
      · rw [if_neg (by omega)]; push_cast; ring
    rw [abs_of_neg hneg] at hx
    generalize hd : -x.toInt * (2 ^ w - Q) = t at hx
    have ht0 : 0 ≤ t := by rw [← hd]; exact mul_nonneg (by omega) hc
    have hval : ((roundInto w Q x.toNat : Nat) : Int) = x.toInt + Q := by
      rw [roundInto]
      push_cast
      rw [hxn]
      have : (x.toInt + 2 ^ w) * (Q : Int) + 2 ^ (w - 1) = t + 2 ^ (w - 1) + 2 ^ w * (x.toInt + Q) := by
        rw [← hd]; ring
      rw [this, Int.add_mul_ediv_left _ _ (by positivity), Int.ediv_eq_zero_of_lt (by positivity)]
      · ring
      · have hp' : (2 : Int) * 2 ^ (w - 1) = 2 ^ w := by exact_mod_cast hp
        omega
    rw [hval]
    simp
  · have hxn : (x.toNat : Int) = x.toInt := by
      rw [BitVec.toInt_eq_toNat_cond] at hneg ⊢
      split at hneg
      · rw [if_pos (by assumption)]
      · have := x.isLt
        have : (x.toNat : Int) < ((2 ^ w : Nat) : Int) := by exact_mod_cast this
        omega
    rw [abs_of_nonneg (by omega)] at hx
    generalize hd : x.toInt * (2 ^ w - Q) = t at hx
    have ht0 : 0 ≤ t := by rw [← hd]; exact mul_nonneg (by omega) hc
    have hval : ((roundInto w Q x.toNat : Nat) : Int) = x.toInt := by
      rw [roundInto]
      push_cast
      rw [hxn]
      have : x.toInt * (Q : Int) + 2 ^ (w - 1) = 2 ^ (w - 1) - t + 2 ^ w * x.toInt := by
        rw [← hd]; ring
      have hp' : (2 : Int) * 2 ^ (w - 1) = 2 ^ w := by exact_mod_cast hp
      rw [this, Int.add_mul_ediv_left _ _ (by positivity), Int.ediv_eq_zero_of_lt (by omega) (by omega)]
      ring
    rw [hval]

theorem from_no_overflow {q : BitVec W} (h : Suits w q) (v : Nat) (hv : v < q.toNat) :
    v * 2 ^ w + q.toNat / 2 < 2 ^ W := by
  have := h.sq; have := h.lt
  have : (v + 1) * 2 ^ w ≤ 2 ^ w * 2 ^ w := Nat.mul_le_mul_right _ (by omega)
  rw [Nat.add_mul] at this
  omega

theorem from_val {q : BitVec W} (h : Suits w q) (a : ModQ W) (ha : Reduced q a) :
    a.modSwitchFrom w = (((a.val.toNat * 2 ^ w + q.toNat / 2) / q.toNat : Nat) : BitVec w) := by
  have h1 := from_no_overflow h _ ha.2
  have hl := h.lt
  have e1 : (a.val <<< w).toNat = a.val.toNat * 2 ^ w := by
    rw [BitVec.toNat_shiftLeft, Nat.shiftLeft_eq, Nat.mod_eq_of_lt (by omega)]
  have e2 : (a.q >>> 1).toNat = q.toNat / 2 := by
    rw [BitVec.toNat_ushiftRight, ha.1, Nat.shiftRight_eq_div_pow, pow_one]
  rw [ModQ.modSwitchFrom]
  apply BitVec.eq_of_toNat_eq
  rw [BitVec.toNat_setWidth, toNat_cast, BitVec.toNat_udiv, BitVec.toNat_or, e1, e2, ha.1,
    ← Nat.shiftLeft_eq, Nat.shiftLeft_eq, Nat.mul_comm, ← Nat.two_pow_add_eq_or_of_lt (by omega)]

/-- The result of the switch to the torus, for an element known through an integer representative. -/
theorem from_near {q : BitVec W} (h : Suits w q) (a : ModQ W) (S : Int) (ha : Rel q a (S : ZMod q.toNat)) :
    ∃ F : Int, a.modSwitchFrom w = (F : BitVec w) ∧ |2 * ((q.toNat : Int) * F - S * 2 ^ w)| ≤ q.toNat := by
  have hpos := h.pos
  have hval := ha.val
  rw [← Int.cast_natCast, ZMod.intCast_eq_intCast_iff_dvd_sub] at hval
  obtain ⟨t, ht⟩ := hval
  refine ⟨((a.val.toNat * 2 ^ w + q.toNat / 2) / q.toNat : Nat) + 2 ^ w * t, ?_, ?_⟩
  · rw [from_val h a ⟨ha.mod, ha.red⟩]
    have : ((2 : BitVec w) ^ w) = 0 := by have := two_pow_self (w := w); push_cast at this; exact this
    generalize (a.val.toNat * 2 ^ w + q.toNat / 2) / q.toNat = d
    push_cast
    rw [this, zero_mul, add_zero]
  · have h1 := Nat.div_add_mod (a.val.toNat * 2 ^ w + q.toNat / 2) q.toNat
    have h2 := Nat.mod_lt (a.val.toNat * 2 ^ w + q.toNat / 2) (show 0 < q.toNat by omega)
    generalize (a.val.toNat * 2 ^ w + q.toNat / 2) / q.toNat = d at *
    generalize (a.val.toNat * 2 ^ w + q.toNat / 2) % q.toNat = m at *
    have e : ((q.toNat : Int) * d + m = a.val.toNat * 2 ^ w + ((q.toNat / 2 : Nat) : Int)) := by exact_mod_cast h1
    have e2 : (q.toNat : Int) * (d + 2 ^ w * t) - S * 2 ^ w = ((q.toNat / 2 : Nat) : Int) - m := by
      have : S = a.val.toNat + q.toNat * t := by linarith
      rw [this]; linarith
    rw [e2, abs_le]
    constructor <;> omega

/-! ### Sums of negacyclic products -/

section
variable {R : Type} [CommRing R]

/-- The coefficients of a sum of negacyclic products. -/
def convSum (N : Nat) (ps : List (List R × List R)) (k : Nat) : R := (ps.map fun x => negaConv N x.1 x.2 k).sum

theorem toRq_conv (N : Nat) (hN : 0 < N) (p q : List R) (hp : p.length = N) (hq : q.length = N) :
    toRq N ((List.range N).map (negaConv N p q)) = toRq N p * toRq N q := by
  obtain ⟨h1, h2, h3⟩ := mul_spec N hN (List.replicate N 0) p q (by simp) hp hq
  rw [← h2]
  congr 1
  apply list_ext_getD
  · simp [h1]
  · intro i hi
    have hi : i < N := by simpa using hi
    rw [h3 i hi, List.getD_eq_getElem?_getD, List.getElem?_map, List.getElem?_range hi]
    rfl

theorem toRq_convSum (N : Nat) (hN : 0 < N) (ps : List (List R × List R))
    (h : ∀ x ∈ ps, x.1.length = N ∧ x.2.length = N) :
    toRq N ((List.range N).map (convSum N ps)) = (ps.map fun x => toRq N x.1 * toRq N x.2).sum := by
  induction ps with
  | nil =>
    simp only [List.map_nil, List.sum_nil]
    rw [show (List.range N).map (convSum N ([] : List (List R × List R))) = List.replicate N 0 from ?_, toRq_zero]
    rw [List.eq_replicate_iff]
    simp [convSum]
  | cons x ps ih =>
    obtain ⟨h1, h2⟩ := h x (List.mem_cons_self ..)
    rw [List.map_cons, List.sum_cons, ← ih fun y hy => h y (List.mem_cons_of_mem _ hy), ← toRq_conv N hN _ _ h1 h2,
      ← toRq_add]
    · congr 1
      apply list_ext_getD
      · simp [Poly.add, zipUpdate_length]
      · intro i hi
        have hi : i < N := by simpa using hi
        rw [Poly.add, zipUpdate_getD _ _ _ i 0 0 (by simpa using hi) (by simpa using hi)]
        simp [List.getD_eq_getElem?_getD, hi, convSum]
    · simp

theorem convSum_cast (N : Nat) (ps : List (List Int × List Int)) (k : Nat) :
    convSum N (ps.map fun x => (x.1.map fun c : Int => (c : R), x.2.map fun c : Int => (c : R))) k =
      ((convSum N ps k : Int) : R) := by
  rw [convSum, convSum, List.map_map, Int.cast_list_sum, List.map_map]
  congr 1
  apply List.map_congr_left
  intro x _
  exact negaConv_cast N x.1 x.2 k

end
end Verif.Ntt
