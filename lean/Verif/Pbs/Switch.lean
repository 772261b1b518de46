import Verif.Pbs.Model
import Verif.Pbs.Spec
import Verif.Poly.Small
import Verif.Lwe.Spec
import Mathlib.Tactic.Ring
/-
Lemmas on the modulus switch.
-/
set_option linter.unusedSectionVars false
namespace Verif.Pbs

variable {w : Nat}

theorem switch_eq (x : BitVec w) (logN offset lutLog : Nat) (hN : logN + 2 ≤ w) (ho : offset < w)
    (hl : lutLog < w) (h0 : 0 < w - logN - 2 + lutLog) (hs : w - logN - 2 + lutLog < w) :
    pbsModulusSwitch x logN offset lutLog =
      some ((x.toNat * 2 ^ offset % 2 ^ w + 2 ^ (w - logN - 2 + lutLog)) / 2 ^ (w - logN - 2 + lutLog + 1) *
        2 ^ lutLog) := by
  rw [pbsModulusSwitch, if_neg (by omega)]
  simp only
  rw [if_pos ⟨ho, hs, hl⟩]
  generalize hsh : w - logN - 2 + lutLog = sh at *
  have hy : ((x <<< offset) >>> sh).toNat = x.toNat * 2 ^ offset % 2 ^ w / 2 ^ sh := by
    rw [BitVec.toNat_ushiftRight, BitVec.toNat_shiftLeft, Nat.shiftLeft_eq, Nat.shiftRight_eq_div_pow]
  generalize hyy : x.toNat * 2 ^ offset % 2 ^ w = y at *
  have hyw : y < 2 ^ w := by rw [← hyy]; exact Nat.mod_lt _ (by positivity)
  have hpow : (2 : Nat) ^ w = 2 ^ sh * 2 ^ (w - sh) := by rw [← pow_add]; congr 1; omega
  have hlt : y / 2 ^ sh < 2 ^ (w - sh) := by
    rw [Nat.div_lt_iff_lt_mul (by positivity)]; rw [mul_comm, ← hpow]; exact hyw
  have hw1 : (2 : Nat) ^ (w - sh) * 2 ≤ 2 ^ w := by
    rw [← pow_succ]; exact Nat.pow_le_pow_right (by omega) (by omega)
  have hpos : (1 : Nat) ≤ 2 ^ (w - sh) := Nat.one_le_two_pow
  have hr : (((x <<< offset) >>> sh) &&& 1#w).toNat = y / 2 ^ sh % 2 := by
    rw [BitVec.toNat_and, hy, BitVec.toNat_ofNat, Nat.mod_eq_of_lt (by
      calc 1 < 2 := by omega
        _ ≤ 2 ^ w := by omega), Nat.and_one_is_mod]
  rw [hy, hr, if_pos (by omega)]
  congr 1
  have hsum : ((x <<< offset) >>> sh + ((x <<< offset) >>> sh &&& 1#w)).toNat = y / 2 ^ sh + y / 2 ^ sh % 2 := by
    rw [BitVec.toNat_add, hy, hr, Nat.mod_eq_of_lt (by omega)]
  rw [BitVec.toNat_shiftLeft, BitVec.toNat_ushiftRight, hsum, Nat.shiftLeft_eq, Nat.shiftRight_eq_div_pow]
  have e1 : (y / 2 ^ sh + y / 2 ^ sh % 2) / 2 ^ 1 = (y + 2 ^ sh) / 2 ^ (sh + 1) := by
    have e2 : (y + 2 ^ sh) / 2 ^ sh = y / 2 ^ sh + 1 := Nat.add_div_right _ (by positivity)
    rw [pow_succ 2 sh, ← Nat.div_div_eq_div_mul, e2]
    omega
  rw [e1]
  apply Nat.mod_eq_of_lt
  have e3 : (y + 2 ^ sh) / 2 ^ (sh + 1) ≤ 2 ^ (w - sh - 1) := by
    have e4 : (2 : Nat) ^ (w - sh) = 2 ^ (w - sh - 1) * 2 := by rw [← pow_succ]; congr 1; omega
    rw [← e1]; omega
  calc _ ≤ 2 ^ (w - sh - 1) * 2 ^ lutLog := Nat.mul_le_mul_right _ e3
    _ = 2 ^ (logN + 1) := by rw [← pow_add]; congr 1; omega
    _ < 2 ^ w := Nat.pow_lt_pow_right (by omega) (by omega)

theorem nearest_eq (logN : Nat) (hN : logN + 2 ≤ w) (x : BitVec w) :
    nearestDegree logN x = (x.toNat + 2 ^ (w - logN - 2)) / 2 ^ (w - logN - 1) := by
  have e1 : (2 : Nat) ^ w = 2 ^ (w - logN - 2) * 2 ^ (logN + 2) := by rw [← pow_add]; congr 1; omega
  have e2 : 2 * (2 : Nat) ^ w = 2 ^ (w - logN - 1) * 2 ^ (logN + 2) := by
    rw [← pow_succ', ← pow_add]; congr 1; omega
  rw [nearestDegree, e2, e1, show 2 * (x.toNat * 2 ^ (logN + 1)) = x.toNat * 2 ^ (logN + 2) by ring,
    ← Nat.add_mul, Nat.mul_div_mul_right _ _ (by positivity)]

theorem switchDegree_eq (x : BitVec w) (logN : Nat) (hN : logN + 2 < w) :
    switchDegree x logN = nearestDegree logN x := by
  rw [switchDegree, switch_eq x logN 0 0 (by omega) (by omega) (by omega) (by omega) (by omega),
    nearest_eq logN (by omega)]
  simp only [pow_zero, mul_one, Option.getD_some, Nat.add_zero]
  rw [Nat.mod_eq_of_lt x.isLt]
  congr 2
  omega

theorem nearest_zero (logN : Nat) : nearestDegree logN (0#w) = 0 := by
  rw [nearestDegree]
  simp only [BitVec.toNat_ofNat, Nat.zero_mod, Nat.zero_mul, Nat.mul_zero, Nat.zero_add]
  exact Nat.div_eq_of_lt (by have : 0 < 2 ^ w := by positivity
                             omega)

/-- Rounding error of the switch. -/
theorem nearest_error (logN : Nat) (hN : logN + 2 ≤ w) (x : BitVec w) :
    |((nearestDegree logN x * 2 ^ (w - logN - 1) : Nat) : Int) - x.toNat| ≤ 2 ^ (w - logN - 2) ∧
    nearestDegree logN x ≤ 2 * 2 ^ logN := by
  rw [nearest_eq logN hN]
  have e1 : (2 : Nat) ^ (w - logN - 1) = 2 * 2 ^ (w - logN - 2) := by rw [← pow_succ']; congr 1; omega
  have h := Nat.div_add_mod (x.toNat + 2 ^ (w - logN - 2)) (2 ^ (w - logN - 1))
  have h2 := Nat.mod_lt (x.toNat + 2 ^ (w - logN - 2)) (show 0 < 2 ^ (w - logN - 1) by positivity)
  have e3 : 2 ^ w = 2 * 2 ^ logN * 2 ^ (w - logN - 1) := by
    rw [← pow_succ', ← pow_add]; congr 1; omega
  have hx := x.isLt
  constructor
  · rw [mul_comm]
    generalize 2 ^ (w - logN - 1) * ((x.toNat + 2 ^ (w - logN - 2)) / 2 ^ (w - logN - 1)) = a at *
    generalize (x.toNat + 2 ^ (w - logN - 2)) % 2 ^ (w - logN - 1) = r at *
    rw [e1] at h2
    have : ((2 : Int) ^ (w - logN - 2)) = ((2 ^ (w - logN - 2) : Nat) : Int) := by push_cast; rfl
    rw [this]
    generalize 2 ^ (w - logN - 2) = c at *
    rw [abs_le]
    omega
  · rw [← Nat.lt_succ_iff, Nat.div_lt_iff_lt_mul (by positivity), Nat.succ_mul, ← e3, e1]
    have : 0 < 2 ^ (w - logN - 2) := by positivity
    omega

/-- The switched phase is close to the phase. -/
theorem switched_phase_close (logN : Nat) (hN : logN + 2 ≤ w) (s ct : List (BitVec w)) (d : Nat)
    (hd : IsSwitchedPhase logN s ct d) :
    |((d * 2 ^ (w - logN - 1) : Nat) - Lwe.phase s ct : BitVec w).toInt| ≤
      (1 + weight s) * 2 ^ (w - logN - 2) := by
  let q : Nat := 2 ^ (w - logN - 1)
  let ε : BitVec w → Int := fun x => ((nearestDegree logN x * q : Nat) : Int) - x.toNat
  have hε : ∀ x, |ε x| ≤ 2 ^ (w - logN - 2) := fun x => (nearest_error logN hN x).1
  have hcast : ∀ x : BitVec w, ((nearestDegree logN x * q : Nat) : BitVec w) = x + ((ε x : Int) : BitVec w) := by
    intro x
    have : ((x.toNat : Int) : BitVec w) = x := by
      rw [Int.cast_natCast]; exact BV.natCast_toNat x
    calc ((nearestDegree logN x * q : Nat) : BitVec w)
        = (((nearestDegree logN x * q : Nat) : Int) : BitVec w) := by rw [Int.cast_natCast]
      _ = (((x.toNat : Int) + ε x : Int) : BitVec w) := by congr 1; simp only [ε]; ring
      _ = _ := by rw [Int.cast_add, this]
  clear_value ε
  have hq : ((2 * 2 ^ logN * q : Nat) : BitVec w) = 0 := by
    have : 2 * 2 ^ logN * q = 2 ^ w := by
      simp only [q]; rw [← pow_succ', ← pow_add]; congr 1; omega
    rw [this]; exact BV.two_pow_self
  have hmod : ((d * q : Nat) : BitVec w) = ((nearestDegree logN (ct.getD s.length 0) * q : Nat) : BitVec w) -
      ∑ i ∈ Finset.range s.length, ((nearestDegree logN (ct.getD i 0) * q : Nat) : BitVec w) * s.getD i 0 := by
    have hz : ∀ a b : Nat, a ≡ b [MOD 2 * 2 ^ logN] → ((a * q : Nat) : BitVec w) = ((b * q : Nat) : BitVec w) := by
      have key : ∀ a : Nat, ((a * q : Nat) : BitVec w) = ((a % (2 * 2 ^ logN) * q : Nat) : BitVec w) := by
        intro a
        conv_lhs => rw [← Nat.div_add_mod a (2 * 2 ^ logN)]
        rw [Nat.add_mul, Nat.cast_add, Nat.mul_right_comm, Nat.cast_mul, hq, zero_mul, zero_add]
      intro a b hab
      rw [key a, key b, hab]
    have h1 := hz _ _ hd
    rw [Nat.add_mul, Nat.cast_add, Finset.sum_mul, Nat.cast_sum] at h1
    rw [← h1, Finset.sum_congr rfl (g := fun i =>
      ((nearestDegree logN (ct.getD i 0) * q : Nat) : BitVec w) * s.getD i 0)]
    · ring
    · intro i _
      rw [Nat.mul_right_comm, Nat.cast_mul (nearestDegree logN _ * q)]
      congr 1
      exact BV.natCast_toNat _
  have hfin : ((d * q : Nat) : BitVec w) - Lwe.phase s ct =
      (((ε (ct.getD s.length 0) - ∑ i ∈ Finset.range s.length, ε (ct.getD i 0) * ((s.getD i 0).toNat : Int)) : Int)
        : BitVec w) := by
    rw [hmod, hcast, Lwe.phase, Int.cast_sub, Int.cast_sum]
    have : ∀ i ∈ Finset.range s.length, ((nearestDegree logN (ct.getD i 0) * q : Nat) : BitVec w) * s.getD i 0 =
        ct.getD i 0 * s.getD i 0 + ((ε (ct.getD i 0) * ((s.getD i 0).toNat : Int) : Int) : BitVec w) := by
      intro i _
      rw [hcast, Int.cast_mul, Int.cast_natCast, BV.natCast_toNat]; ring
    rw [Finset.sum_congr rfl this, Finset.sum_add_distrib]
    ring
  show |(((d * q : Nat) : BitVec w) - Lwe.phase s ct).toInt| ≤ _
  rw [hfin]
  refine (Poly.abs_toInt_le _).trans ((abs_sub _ _).trans ?_)
  rw [Int.add_mul, one_mul, weight]
  refine add_le_add (hε _) ((Finset.abs_sum_le_sum_abs _ _).trans ?_)
  push_cast
  rw [Finset.sum_mul]
  refine Finset.sum_le_sum fun i _ => ?_
  rw [abs_mul, mul_comm, Nat.abs_cast]
  exact mul_le_mul_of_nonneg_left (hε _) (by positivity)

theorem exists_switched_phase (logN : Nat) (s ct : List (BitVec w)) :
    ∃ d, d < 2 * 2 ^ logN ∧ IsSwitchedPhase logN s ct d := by
  have hp : 0 < 2 * 2 ^ logN := by positivity
  generalize hS : ∑ i ∈ Finset.range s.length, nearestDegree logN (ct.getD i 0) * (s.getD i 0).toNat = S
  refine ⟨(nearestDegree logN (ct.getD s.length 0) + S * (2 * 2 ^ logN - 1)) % (2 * 2 ^ logN), Nat.mod_lt _ hp, ?_⟩
  rw [IsSwitchedPhase, hS]
  have : nearestDegree logN (ct.getD s.length 0) + S * (2 * 2 ^ logN - 1) + S =
      nearestDegree logN (ct.getD s.length 0) + S * (2 * 2 ^ logN) := by
    obtain ⟨m, hm⟩ : ∃ m, 2 * 2 ^ logN = m + 1 := ⟨2 * 2 ^ logN - 1, by omega⟩
    rw [hm]; simp only [Nat.add_sub_cancel]; ring
  rw [Nat.ModEq, Nat.mod_add_mod, this, Nat.add_mul_mod_self_right]

end Verif.Pbs
