import Verif.Decomp.Model
import Verif.Util.BitVecRing
import Mathlib.Algebra.BigOperators.Ring.List
/-
Helper lemmas on the decomposition.
-/
namespace Verif.Decomp
open Verif.BV

variable {w : Nat}

/-! ### Rounding -/

theorem toNat_one (hw : 0 < w) : (1#w).toNat = 1 := by
  rw [BitVec.toNat_ofNat]
  exact Nat.mod_eq_of_lt (Nat.one_lt_two_pow (by omega))

theorem toNat_one_shl (k : Nat) (hk : k < w) : (1#w <<< k).toNat = 2 ^ k := by
  rw [BitVec.toNat_shiftLeft, toNat_one (by omega), Nat.shiftLeft_eq, Nat.one_mul]
  exact Nat.mod_eq_of_lt (Nat.pow_lt_pow_right (by omega) hk)

theorem and_shift_bit (x : BitVec w) (k : Nat) (hk : k < w) :
    ((x &&& (1#w <<< k)) >>> k).toNat = x.toNat / 2 ^ k % 2 := by
  rw [BitVec.toNat_ushiftRight, BitVec.toNat_and, toNat_one_shl k hk, Nat.shiftRight_and_distrib,
    Nat.shiftRight_eq_div_pow, Nat.shiftRight_eq_div_pow, Nat.div_self (Nat.two_pow_pos k),
    Nat.and_one_is_mod]

theorem closest_toNat (b l : Nat) (x : BitVec w) (hbl : l * b < w) :
    (closestRepresentable b l x).toNat =
      ((x.toNat + 2 ^ (w - l * b - 1)) / 2 ^ (w - l * b) * 2 ^ (w - l * b)) % 2 ^ w := by
  generalize hn : w - l * b = n
  have hn0 : 0 < n := by omega
  have hnw : n ≤ w := by omega
  have e : 2 ^ n = 2 * 2 ^ (n - 1) := by
    rw [← pow_succ']; congr 1; omega
  have hp := Nat.two_pow_pos (n - 1)
  have hx := x.isLt
  have key : x.toNat / 2 ^ n + x.toNat / 2 ^ (n - 1) % 2 = (x.toNat + 2 ^ (n - 1)) / 2 ^ n := by
    rw [e, Nat.mul_comm 2, ← Nat.div_div_eq_div_mul,
      ← Nat.div_div_eq_div_mul, Nat.add_div_right _ hp]
    omega
  simp only [closestRepresentable, hn]
  rw [BitVec.toNat_shiftLeft, BitVec.toNat_add, and_shift_bit x (n - 1) (by omega),
    BitVec.toNat_ushiftRight, Nat.shiftRight_eq_div_pow, key, Nat.shiftLeft_eq, Nat.mod_mul_mod]

/-- The rounded value is a multiple of `2^n` and the signed rounding error is at most `2^(n-1)`. -/
theorem closest_spec (b l : Nat) (x : BitVec w) (hbl : l * b < w) :
    ∃ (q : Nat) (e : Int), closestRepresentable b l x = ((q * 2 ^ (w - l * b) : Nat) : BitVec w) ∧
      (x.toNat : Int) = q * 2 ^ (w - l * b) + e ∧
      -(2 ^ (w - l * b - 1) : Int) ≤ e ∧ e < 2 ^ (w - l * b - 1) := by
  have hc := closest_toNat b l x hbl
  generalize hn : w - l * b = n at *
  have hn0 : 0 < n := by omega
  have e2 : 2 ^ n = 2 * 2 ^ (n - 1) := by
    rw [← pow_succ']; congr 1; omega
  have hd := Nat.div_add_mod (x.toNat + 2 ^ (n - 1)) (2 ^ n)
  have hm := Nat.mod_lt (x.toNat + 2 ^ (n - 1)) (show 2 ^ n > 0 from Nat.two_pow_pos n)
  refine ⟨(x.toNat + 2 ^ (n - 1)) / 2 ^ n,
    ((x.toNat + 2 ^ (n - 1)) % 2 ^ n : Nat) - (2 ^ (n - 1) : Int), ?_, ?_, ?_, ?_⟩
  · rw [← natCast_toNat (closestRepresentable b l x), natCast_eq_iff, hc, Nat.mod_mod]
  · have := congrArg (fun z : Nat => (z : Int)) hd
    push_cast at this ⊢
    linarith
  · have := Int.natCast_nonneg ((x.toNat + 2 ^ (n - 1)) % 2 ^ n)
    linarith
  · have : (((x.toNat + 2 ^ (n - 1)) % 2 ^ n : Nat) : Int) < ((2 ^ n : Nat) : Int) := by
      exact_mod_cast hm
    have e3 : (2 ^ n : Int) = 2 * 2 ^ (n - 1) := by exact_mod_cast e2
    push_cast at this ⊢
    linarith

/-! ### One level -/

theorem and_mask (x : BitVec w) (b : Nat) (hb : b < w) :
    (x &&& ((1#w <<< b) - 1#w)).toNat = x.toNat % 2 ^ b := by
  have h : ((1#w <<< b) - 1#w).toNat = 2 ^ b - 1 := by
    have h1 := toNat_one_shl b hb
    have h2 := toNat_one (w := w) (by omega)
    have h3 := Nat.two_pow_pos b
    rw [BitVec.toNat_sub_of_le]
    · rw [h1, h2]
    · rw [BitVec.le_def, h1, h2]; exact h3
  rw [BitVec.toNat_and, h, Nat.and_two_pow_sub_one_eq_mod]

/-- Top bit of a number below `2^b`. -/
theorem shiftRight_pred_of_lt (r b : Nat) (hb : 0 < b) (hr : r < 2 ^ b) :
    r >>> (b - 1) = if 2 ^ (b - 1) ≤ r then 1 else 0 := by
  have e : 2 ^ b = 2 * 2 ^ (b - 1) := by rw [← pow_succ']; congr 1; omega
  have hp := Nat.two_pow_pos (b - 1)
  rw [Nat.shiftRight_eq_div_pow]
  split
  · rw [Nat.div_eq_iff hp]; omega
  · rw [Nat.div_eq_of_lt]; omega

theorem carry_toNat (b : Nat) (hb : 0 < b) (hbw : b < w) (res st : BitVec w)
    (hr : res.toNat < 2 ^ b) :
    ((((res - 1#w) ||| st) &&& res) >>> (b - 1)).toNat =
      if 2 ^ (b - 1) < res.toNat ∨ (res.toNat = 2 ^ (b - 1) ∧ st.toNat / 2 ^ (b - 1) % 2 = 1)
      then 1 else 0 := by
  have hp := Nat.two_pow_pos (b - 1)
  have e : 2 ^ b = 2 * 2 ^ (b - 1) := by rw [← pow_succ']; congr 1; omega
  rw [BitVec.toNat_ushiftRight, BitVec.toNat_and, Nat.shiftRight_and_distrib,
    shiftRight_pred_of_lt _ b hb hr]
  by_cases h1 : 2 ^ (b - 1) ≤ res.toNat
  · rw [if_pos h1, Nat.and_one_is_mod, BitVec.toNat_or, Nat.shiftRight_or_distrib]
    have hs : (res - 1#w).toNat = res.toNat - 1 := by
      have h2 := toNat_one (w := w) (by omega)
      rw [BitVec.toNat_sub_of_le, h2]
      rw [BitVec.le_def, h2]; omega
    rw [hs, shiftRight_pred_of_lt _ b hb (by omega), Nat.shiftRight_eq_div_pow]
    by_cases h2 : 2 ^ (b - 1) < res.toNat
    · rw [if_pos (by omega), if_pos (Or.inl h2), Nat.or_mod_two_eq_one]
      exact Or.inl rfl
    · rw [if_neg (by omega), Nat.zero_or]
      by_cases h3 : st.toNat / 2 ^ (b - 1) % 2 = 1
      · rw [if_pos (Or.inr ⟨by omega, h3⟩), h3]
      · rw [if_neg (by omega)]; omega
  · rw [if_neg h1, Nat.and_zero, if_neg (by omega)]

/-- One level splits the state exactly: `state = digit + 2^b * state'` over the integers, with a
digit in `[-2^(b-1), 2^(b-1)]`. -/
theorem oneLevel_spec (b : Nat) (hb : 0 < b) (hbw : b < w) (s : BitVec w) :
    ∃ d : Int, (decomposeOneLevel b s ((1#w <<< b) - 1#w)).1 = (d : BitVec w) ∧
      (s.toNat : Int) = d + 2 ^ b * ((decomposeOneLevel b s ((1#w <<< b) - 1#w)).2.toNat : Int) ∧
      -(2 ^ (b - 1) : Int) ≤ d ∧ d ≤ 2 ^ (b - 1) := by
  have hr := and_mask s b hbw
  have hp := Nat.two_pow_pos (b - 1)
  have e : 2 ^ b = 2 * 2 ^ (b - 1) := by rw [← pow_succ']; congr 1; omega
  have hlt : (s &&& ((1#w <<< b) - 1#w)).toNat < 2 ^ b := by
    rw [hr]; exact Nat.mod_lt _ (Nat.two_pow_pos b)
  have hc := carry_toNat b hb hbw (s &&& ((1#w <<< b) - 1#w)) (s >>> b) hlt
  have hst : (s >>> b).toNat = s.toNat / 2 ^ b := by
    rw [BitVec.toNat_ushiftRight, Nat.shiftRight_eq_div_pow]
  have hdm := Nat.div_add_mod s.toNat (2 ^ b)
  simp only [decomposeOneLevel]
  generalize hres : s &&& ((1#w <<< b) - 1#w) = res at *
  generalize hcar : (((res - 1#w) ||| s >>> b) &&& res) >>> (b - 1) = car at *
  have hs2 : (s >>> b + car).toNat = s.toNat / 2 ^ b + car.toNat := by
    rw [BitVec.toNat_add, hst, Nat.mod_eq_of_lt]
    have h1 : car.toNat ≤ 1 := by rw [hc]; split <;> omega
    have h2 : s.toNat / 2 ^ b ≤ s.toNat / 2 := by
      rw [e]; exact Nat.div_le_div_left (by omega) (by omega)
    have h3 := s.isLt
    have h4 : 2 ^ 2 ≤ 2 ^ w := Nat.pow_le_pow_right (by omega) (by omega)
    omega
  refine ⟨(res.toNat : Int) - 2 ^ b * car.toNat, ?_, ?_, ?_⟩
  · rw [shl_eq_mul]
    push_cast
    rw [natCast_toNat, natCast_toNat]
    ring
  · rw [hs2, hr]
    have := congrArg (fun z : Nat => (z : Int)) hdm
    push_cast at this ⊢
    linarith
  · have e' : (2 ^ b : Int) = 2 * 2 ^ (b - 1) := by exact_mod_cast e
    have hlt' : (res.toNat : Int) < 2 ^ b := by exact_mod_cast hlt
    have hnn : (0 : Int) ≤ res.toNat := Int.natCast_nonneg _
    rw [hc]
    split
    · rename_i h
      have h' : (2 ^ (b - 1) : Int) ≤ res.toNat := by
        have : 2 ^ (b - 1) ≤ res.toNat := by omega
        exact_mod_cast this
      push_cast
      constructor <;> linarith
    · rename_i h
      have h' : (res.toNat : Int) ≤ 2 ^ (b - 1) := by
        have : res.toNat ≤ 2 ^ (b - 1) := by omega
        exact_mod_cast this
      have hp' : (0 : Int) < 2 ^ (b - 1) := by exact_mod_cast hp
      push_cast
      constructor <;> linarith

/-! ### The whole iterator -/

/-- Iterators met while exhausting a decomposition of base log `b`. -/
def Iter.Ok (b : Nat) (it : Iter w) : Prop := it.baseLog = b ∧ it.modBMask = (1#w <<< b) - 1#w

theorem Iter.next_zero (it : Iter w) (h : it.currentLevel = 0) :
    it.next = (none, { it with fresh := false }) := by
  simp [Iter.next, h]

theorem collect_spec (b : Nat) (hb : 0 < b) (hbw : b < w) :
    ∀ (n : Nat) (it : Iter w), it.Ok b → it.currentLevel = n →
      ∃ ds : List Int, ds.length = n ∧
        it.collect (n + 1) = (List.range n).map (fun j =>
          { level := n - j, baseLog := b, value := ((ds.getD j 0 : Int) : BitVec w) }) ∧
        (∀ d ∈ ds, -(2 ^ (b - 1) : Int) ≤ d ∧ d ≤ 2 ^ (b - 1)) ∧
        ∃ r : Int, (it.state.toNat : Int) =
          ((List.range n).map fun j => ds.getD j 0 * 2 ^ (b * j)).sum + 2 ^ (b * n) * r := by
  intro n
  induction n with
  | zero =>
    intro it _ h0
    refine ⟨[], rfl, ?_, by simp, it.state.toNat, by simp⟩
    simp [Iter.collect, Iter.next_zero it h0]
  | succ n ih =>
    intro it ⟨h1, h2⟩ h0
    obtain ⟨d, hd, hs, hlo, hhi⟩ := oneLevel_spec b hb hbw it.state
    have hnext : it.next = (some { level := n + 1, baseLog := b, value := (d : BitVec w) },
        { it with fresh := false, state := (decomposeOneLevel b it.state ((1#w <<< b) - 1#w)).2,
                  currentLevel := n }) := by
      simp only [Iter.next, h0, h1, h2, hd]
      simp [← h1]
    obtain ⟨ds, hlen, hcol, hbd, r, hr⟩ := ih
      { it with fresh := false, state := (decomposeOneLevel b it.state ((1#w <<< b) - 1#w)).2,
                currentLevel := n } ⟨h1, h2⟩ rfl
    refine ⟨d :: ds, by simp [hlen], ?_, ?_, r, ?_⟩
    · rw [Iter.collect, hnext]
      simp only [hcol]
      rw [List.range_succ_eq_map, List.map_cons, List.map_map]
      simp [Function.comp_def]
    · intro z hz
      rcases List.mem_cons.1 hz with rfl | hz
      · exact ⟨hlo, hhi⟩
      · exact hbd z hz
    · rw [hs]
      simp only at hr
      rw [hr, List.range_succ_eq_map, List.map_cons, List.map_map, List.sum_cons, mul_add,
        ← List.sum_map_mul_left]
      simp only [Function.comp_def, List.getD_cons_zero, List.getD_cons_succ]
      have : (List.map (fun i => (2:Int) ^ b * (ds.getD i 0 * 2 ^ (b * i))) (List.range n)) =
          (List.map (fun x => ds.getD x 0 * 2 ^ (b * (x + 1))) (List.range n)) := by
        apply List.map_congr_left
        intro j _
        rw [Nat.mul_add, pow_add]; ring
      rw [this, Nat.mul_add, pow_add]
      ring

end Verif.Decomp
