import Verif.Circuit.Lut
import Verif.Lwe.Props
import Verif.Lwe.Props2
/-
One instruction of a program: what it does to the registers.
-/
namespace Verif.Circuit
open Verif Verif.Poly Verif.Pbs

set_option linter.unusedSectionVars false

variable {w : Nat}

theorem keyBound_of_binary (hw : 2 ≤ w) {key : List (BitVec w)} (h : Lwe.BinaryKey key) : KeyBound 1 key := by
  intro x hx
  rcases h x hx with rfl | rfl
  · simp
  · have : ((1 : Int) : BitVec w).toInt = 1 := BV.toInt_cast_of_bounds (w := w) 1
      (by have : (0 : Int) < 2 ^ (w - 1) := by positivity
          omega)
      (by have : (2 : Int) ^ 1 ≤ 2 ^ (w - 1) := pow_le_pow_right₀ (by norm_num) (by omega)
          omega) (by omega)
    rw [Int.cast_one] at this
    rw [this]; simp

theorem newTrivial_eq (k N : Nat) (hN : 0 < N) (v : List (BitVec w)) (hv : v.length = N) :
    Glwe.newTrivialGlwe k v = List.replicate (k * N) 0#w ++ v := by
  subst hv
  rw [Glwe.newTrivialGlwe, Glwe.fillTrivialGlwe, List.map_const', Glwe.maskOf, Glwe.bodyOf, Poly.zipUpdate_snd]
  · congr 2
    simp [Nat.mul_add, Nat.mul_comm]
  · simp [Nat.mul_add]

theorem lookup_spec (S : Server w) (small big : List (BitVec w)) (B E : Int) (Bk : Nat)
    (hS : Serves S small big B E Bk) (p k : Nat) (hk : k ≤ w) (hp : 2 * p = 2 ^ (w - k)) (t : List Int)
    (out ct : List (BitVec w)) (m b : Int) (ho : Lwe.Fits big out) (hc : Holds big (2 ^ k) ct m b)
    (hb : 2 * (b + ksBound S Bk + switchBound S small) < 2 ^ k) :
    ∃ sm r, S.keyswitch ct = some sm ∧
      S.bootstrap out sm (Glwe.newTrivialGlwe S.k (lutPoly w S.N p (2 ^ k) t)) = some r ∧
      Holds big (2 ^ k) r (lookupInt p t m) (pbsBound S B E) := by
  obtain ⟨hf, e, he, hph⟩ := hc
  have hN : 0 < S.N := by rw [Server.N]; positivity
  have hbl : big.length = S.k * S.N := hS.bigLen
  choose! er h1 h2 using hS.kskEnc
  obtain ⟨sm, x, s1, s2, s3, s4⟩ := Lwe.C16_error_bound S.bk S.lk hS.kgadget big small S.ksk
    (List.replicate (S.n + 1) 0) ct er Bk (by rw [hS.smallLen]; exact hS.kskLen)
    (by rw [hS.smallLen]; exact h2) h1 hS.bigBin (by rw [Lwe.Fits, List.length_replicate, hS.smallLen]) hf
  rw [hS.smallLen] at s1
  rw [hbl] at s4
  have hv := lutPoly_length (w := w) S.N p (2 ^ k) t
  obtain ⟨t1, t2⟩ := C31_trivial_accumulator S.N S.k hN big (lutPoly w S.N p (2 ^ k) t) hv
  obtain ⟨r, r1, -, r2, r3⟩ := C31_lookup S.T S.N S.k S.b S.l S.logN rfl hS.size (2 ^ (S.b - 1)) B 1 E hS.transform le_rfl
    hS.gadget hS.nonneg.1 (by norm_num) hS.nonneg.2 small big S.bsk _ (lutPoly w S.N p (2 ^ k) t) sm out hS.bigLen
    (keyBound_of_binary (by have := hS.size; omega) hS.bigBin) hS.smallBin hS.bskEnc t1 hv t2 s2 (by rw [ho, hbl])
    ((2 ^ k * lookupInt p t m : Int) : BitVec w)
    (fun d hd hcl => lookup_position hk (by have := hS.size; omega) p hp t _ m (e + x) _
      (by rw [s3, hph]; push_cast; ring)
      (by
        have := abs_add_le e x
        simp only [ksBound, switchBound] at hb
        linarith) d hd hcl)
  refine ⟨sm, r, s1, by rw [newTrivial_eq S.k S.N hN _ hv]; exact r1, r2,
    (Lwe.phase big r - ((2 ^ k * lookupInt p t m : Int) : BitVec w)).toInt, ?_, ?_⟩
  · rw [pbsBound, ← hS.smallLen]; exact r3
  · rw [Int.cast_add, BV.intCast_toInt]; ring

end Verif.Circuit
