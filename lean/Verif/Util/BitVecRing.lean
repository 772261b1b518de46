import Mathlib.Data.BitVec
import Mathlib.Tactic.Ring
import Mathlib.Tactic.Linarith
/-
`BitVec w` as the commutative ring `ℤ / 2^w`: shifts are multiplications, casts are surjective.
-/
namespace Verif.BV

variable {w : Nat}

theorem natCast_toNat (x : BitVec w) : ((x.toNat : Nat) : BitVec w) = x := by
  apply BitVec.eq_of_toNat_eq
  simp

theorem toNat_cast (a : Nat) : ((a : Nat) : BitVec w).toNat = a % 2 ^ w := by
  simp

theorem natCast_eq_iff (a b : Nat) : ((a : Nat) : BitVec w) = (b : Nat) ↔ a % 2 ^ w = b % 2 ^ w := by
  constructor
  · intro h
    have := congrArg BitVec.toNat h
    simpa using this
  · intro h
    apply BitVec.eq_of_toNat_eq
    simpa using h

theorem intCast_toInt (x : BitVec w) : ((x.toInt : Int) : BitVec w) = x := by
  apply BitVec.eq_of_toInt_eq
  simp

theorem intCast_eq_iff (a b : Int) :
    ((a : Int) : BitVec w) = (b : Int) ↔ ∃ k : Int, a = b + 2 ^ w * k := by
  constructor
  · intro h
    have h' := congrArg BitVec.toInt h
    rw [BitVec.toInt_intCast, BitVec.toInt_intCast] at h'
    have := (Int.emod_emod_of_dvd (a) (dvd_refl (2 ^ w : Int)))
    have h2 : a % ((2 ^ w : Nat) : Int) = b % ((2 ^ w : Nat) : Int) := by
      rw [← Int.bmod_emod, h', Int.bmod_emod]
    refine ⟨a / ((2 ^ w : Nat) : Int) - b / ((2 ^ w : Nat) : Int), ?_⟩
    have h3 := Int.mul_ediv_add_emod a ((2 ^ w : Nat) : Int)
    have h4 := Int.mul_ediv_add_emod b ((2 ^ w : Nat) : Int)
    push_cast at *
    rw [mul_sub]
    linarith
  · rintro ⟨k, rfl⟩
    apply BitVec.eq_of_toInt_eq
    rw [BitVec.toInt_intCast, BitVec.toInt_intCast]
    have : (2 ^ w : Int) = ((2 ^ w : Nat) : Int) := by push_cast; rfl
    rw [this, ← Int.emod_bmod (b + _), Int.add_mul_emod_self_left, Int.emod_bmod]

theorem ofInt_eq_cast (a : Int) : BitVec.ofInt w a = (a : BitVec w) := rfl

theorem two_pow_self : ((2 : Nat) ^ w : Nat) = (0 : BitVec w) := by
  have := (natCast_eq_iff (w := w) (2 ^ w) 0).2 (by simp)
  simpa using this

theorem toInt_cast_of_bounds (a : Int) (h1 : -(2 ^ (w - 1) : Int) ≤ a) (h2 : a < 2 ^ (w - 1))
    (hw : 0 < w) : ((a : Int) : BitVec w).toInt = a := by
  have e : (2 ^ w : Nat) = 2 * 2 ^ (w - 1) := by rw [← pow_succ']; congr 1; omega
  rw [BitVec.toInt_intCast, Int.bmod_eq_of_le]
  · rw [e]; push_cast; omega
  · rw [e]; push_cast; omega

theorem shl_eq_mul (x : BitVec w) (n : Nat) : x <<< n = x * ((2 ^ n : Nat) : BitVec w) := by
  apply BitVec.eq_of_toNat_eq
  rw [BitVec.toNat_shiftLeft, BitVec.toNat_mul, Nat.shiftLeft_eq, toNat_cast, Nat.mul_mod_mod]

end Verif.BV
