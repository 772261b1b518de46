import Verif.Circuit.Spec
import Verif.Pbs.Props2
import Verif.Pbs.Examples
/-
The accumulator of a table, read at the switched phase.
-/
namespace Verif.Circuit
open Verif Verif.Poly Verif.Pbs

variable {w : Nat}

/-- `tableAt` has period `2 p` and is negacyclic. -/
theorem tableAt_mod (p : Nat) (t : List Int) (x : Nat) : tableAt p t (x % (2 * p)) = tableAt p t x := by
  simp only [tableAt, Nat.mod_mod]

/-- The table of the accumulator is the table of the specification. -/
theorem lookupInt_eq (p : Nat) (hp : 0 < p) (t : List Int) (x : Int) :
    lookupInt p t x = tableAt p t (x % (2 * p)).toNat := by
  have h1 := Int.emod_nonneg x (show (2 * p : Int) ≠ 0 by omega)
  have h2 := Int.emod_lt_of_pos x (show (0 : Int) < 2 * p by omega)
  rw [lookupInt, tableAt]
  generalize x % (2 * p : Int) = y at *
  rw [Nat.mod_eq_of_lt (by omega)]
  by_cases h : y < p
  · rw [if_pos h, if_pos (by omega)]
  · rw [if_neg h, if_neg (by omega), show (y - p).toNat = y.toNat - p by omega]

theorem tableAt_add (p : Nat) (hp : 0 < p) (t : List Int) (x : Nat) : tableAt p t (x + p) = -tableAt p t x := by
  have h1 := Nat.mod_lt x (show 0 < 2 * p by omega)
  simp only [tableAt]
  by_cases h : x % (2 * p) < p
  · have e : (x + p) % (2 * p) = x % (2 * p) + p := by
      rw [Nat.add_mod, Nat.mod_eq_of_lt (show p < 2 * p by omega), Nat.mod_eq_of_lt (by omega)]
    rw [e, if_pos h, if_neg (by omega), Nat.add_sub_cancel]
  · have e : (x + p) % (2 * p) = x % (2 * p) - p := by
      rw [Nat.add_mod, Nat.mod_eq_of_lt (show p < 2 * p by omega), Nat.mod_eq_sub_mod (by omega),
        Nat.mod_eq_of_lt (by omega)]
      omega
    rw [e, if_neg h, if_pos (by omega), neg_neg]

theorem lutPoly_length (N p : Nat) (delta : Int) (t : List Int) : (lutPoly w N p delta t).length = N := by
  simp [lutPoly]

/-- The negacyclic extension of the accumulator at `d` is the value of the table at the message nearest to
`d p / N`. -/
theorem ext_lutPoly (N p : Nat) (hN : 0 < N) (hp : 0 < p) (delta : Int) (t : List Int) (d : Nat) (hd : d < 2 * N) :
    ext N (lutPoly w N p delta t) d =
      ((delta * tableAt p t ((2 * (d * p) + N) / (2 * N)) : Int) : BitVec w) := by
  have hr := Nat.mod_lt d hN
  rw [ext, List.getD_eq_getElem?_getD, lutPoly, List.getElem?_map, List.getElem?_range hr, Option.map_some,
    Option.getD_some]
  by_cases h : d < N
  · rw [Nat.div_eq_of_lt h, Nat.mod_eq_of_lt h, pow_zero, one_mul]
  · have h1 : d / N = 1 := Nat.div_eq_of_lt_le (by omega) (by omega)
    have h2 : d % N = d - N := by rw [Nat.mod_eq_sub_mod (by omega), Nat.mod_eq_of_lt (by omega)]
    have h3 : (2 * (d * p) + N) / (2 * N) = (2 * ((d - N) * p) + N) / (2 * N) + p := by
      obtain ⟨c, rfl⟩ : ∃ c, d = c + N := ⟨d - N, by omega⟩
      rw [Nat.add_sub_cancel, ← Nat.add_mul_div_right _ _ (show 0 < 2 * N by omega)]
      congr 1
      ring
    rw [h1, h2, h3, tableAt_add p hp]
    push_cast
    ring

/-- Rounding to the nearest message: if `d / 2N` is within half a step of `m / 2p`, modulo one, the table is read at
`m`. -/
theorem lookup_position {logN k : Nat} (hk : k ≤ w) (hlog : logN + 1 ≤ w) (p : Nat) (hp : 2 * p = 2 ^ (w - k))
    (t : List Int) (ph : BitVec w) (m e Q : Int) (hph : ph = ((2 ^ k * m + e : Int) : BitVec w))
    (he : 2 * (|e| + Q) < 2 ^ k) (d : Nat) (hd : d < 2 * 2 ^ logN)
    (hc : |((d * 2 ^ (w - logN - 1) : Nat) - ph : BitVec w).toInt| ≤ Q) :
    ext (2 ^ logN) (lutPoly w (2 ^ logN) p (2 ^ k) t) d = ((2 ^ k * lookupInt p t m : Int) : BitVec w) := by
  have hp0 : 0 < p := by
    have : 0 < 2 ^ (w - k) := by positivity
    omega
  rw [ext_lutPoly (2 ^ logN) p (by positivity) hp0 _ t d hd]
  congr 2
  rw [lookupInt_eq p hp0, ← tableAt_mod]
  congr 1
  generalize hf : ((d * 2 ^ (w - logN - 1) : Nat) - ph : BitVec w).toInt = f at hc
  have h1 : (((d * 2 ^ (w - logN - 1) : Nat) : Int) : BitVec w) = ((2 ^ k * m + e + f : Int) : BitVec w) := by
    have h := BV.intCast_toInt ((d * 2 ^ (w - logN - 1) : Nat) - ph : BitVec w)
    rw [hf] at h
    rw [Int.cast_add _ f, ← hph, h, Int.cast_natCast]; ring
  obtain ⟨q, hq⟩ := (BV.intCast_eq_iff _ _).1 h1
  have he1 := abs_lt.1 (lt_of_le_of_lt (le_trans (abs_add_le e f) (add_le_add_right hc _))
    (show |e| + Q < |e| + Q + 1 by omega))
  -- `d q = D (m + 2p q') + (e + f)` with `D = 2^k`
  have hw : (2 : Int) ^ w = 2 ^ k * (2 * p) := by
    have : (2 : Int) * p = 2 ^ (w - k) := by exact_mod_cast hp
    rw [this, ← pow_add]; congr 1; omega
  have hst : (2 : Int) * 2 ^ logN * 2 ^ (w - logN - 1) = 2 ^ k * (2 * p) := by
    rw [← hw, ← pow_succ', ← pow_add]; congr 1; omega
  push_cast at hq
  rw [hw] at hq
  have hD : (0 : Int) < 2 ^ k := by positivity
  have hS : (0 : Int) < 2 ^ (w - logN - 1) := by positivity
  have hNN : (0 : Int) < 2 ^ logN := by positivity
  -- the rounded index is `m + 2 p q`
  have hidx : (((2 * (d * p) + 2 ^ logN) / (2 * 2 ^ logN) : Nat) : Int) = m + 2 * p * q := by
    push_cast
    have hp' : (0 : Int) < p := by exact_mod_cast hp0
    have hlo : -(2 ^ k : Int) < 2 * (e + f) := by omega
    have hhi : 2 * (e + f) < (2 ^ k : Int) := by omega
    clear hw hf h1 hph hc
    generalize (2 : Int) ^ k = D at *
    generalize (2 : Int) ^ (w - logN - 1) = S at *
    generalize (2 : Int) ^ logN = n at *
    generalize (p : Int) = P at *
    generalize (d : Int) = x at *
    have hx : (2 * (x * P) + n) * S = 2 * n * (m + 2 * P * q) * S + P * (2 * (e + f) + D) := by
      have hst' : n * S = D * P := by linarith
      linear_combination 2 * P * hq + hst' - (m + 2 * P * q) * hst
    have a1 : 0 < P * (2 * (e + f) + D) := mul_pos hp' (by omega)
    have a2 : P * (2 * (e + f) + D) < 2 * n * S := by
      rw [hst]; nlinarith
    have b1 : 2 * n * (m + 2 * P * q) < 2 * (x * P) + n := by
      refine lt_of_mul_lt_mul_right ?_ hS.le
      linarith
    have b2 : 2 * (x * P) + n < 2 * n * (m + 2 * P * q) + 2 * n := by
      refine lt_of_mul_lt_mul_right (a := S) ?_ hS.le
      nlinarith
    apply le_antisymm
    · rw [← Int.lt_add_one_iff]
      exact Int.ediv_lt_of_lt_mul (by omega) (by linarith)
    · exact (Int.le_ediv_iff_mul_le (by omega)).2 (by linarith)
  rw [← Int.natCast_inj]
  push_cast at hidx ⊢
  rw [hidx, Int.toNat_of_nonneg (Int.emod_nonneg _ (by positivity)), Int.add_mul_emod_self_left]

end Verif.Circuit
