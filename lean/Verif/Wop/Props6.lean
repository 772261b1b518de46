import Verif.Wop.Props3
import Verif.Wop.Props5
/-
C89: the bits of a message, extracted and given to the circuit bootstrap and vertical packing, select the entry of the
message in the table.
-/
namespace Verif.Wop
open Verif Verif.Poly Verif.Glwe Verif.Pbs Verif.Decomp Verif.Pks
open Verif.Csprng (Build)

variable {w : Nat}

/-- The lowest `nbits` bits of `m`, most significant first. -/
def bitsOf (nbits m : Nat) : List Bool := (List.range nbits).map fun j => m.testBit (nbits - 1 - j)

theorem bitsOf_length (nbits m : Nat) : (bitsOf nbits m).length = nbits := by simp [bitsOf]

theorem bitsOf_getD (nbits m i : Nat) (hi : i < nbits) : (bitsOf nbits m).getD i false = m.testBit (nbits - 1 - i) := by
  simp [bitsOf, hi]

theorem indexOf_testBit : ∀ (bs : List Bool) (j : Nat), (indexOf bs).testBit j =
    if j < bs.length then bs.getD (bs.length - 1 - j) false else false
  | [], j => by simp [indexOf]
  | b :: bs, j => by
    have ih := indexOf_testBit bs j
    have hlt := indexOf_lt bs
    rw [indexOf, List.length_cons]
    cases b
    · rw [if_neg (by simp), Nat.zero_add, ih]
      by_cases h : j < bs.length
      · rw [if_pos h, if_pos (by omega), show bs.length + 1 - 1 - j = (bs.length - 1 - j) + 1 by omega, List.getD_cons_succ]
      · rw [if_neg h]
        by_cases h2 : j < bs.length + 1
        · rw [if_pos h2, show bs.length + 1 - 1 - j = 0 by omega, List.getD_cons_zero]
        · rw [if_neg h2]
    · rw [if_pos rfl]
      by_cases h : j < bs.length
      · rw [Nat.testBit_two_pow_add_gt h, ih, if_pos h, if_pos (by omega),
          show bs.length + 1 - 1 - j = (bs.length - 1 - j) + 1 by omega, List.getD_cons_succ]
      · by_cases h2 : j = bs.length
        · subst h2
          rw [Nat.testBit_two_pow_add_eq, Nat.testBit_lt_two_pow hlt, if_pos (by omega),
            show bs.length + 1 - 1 - bs.length = 0 by omega, List.getD_cons_zero]
          rfl
        · rw [if_neg (by omega)]
          refine Nat.testBit_lt_two_pow (lt_of_lt_of_le (b := 2 ^ (bs.length + 1)) ?_
            (Nat.pow_le_pow_right (by omega) (by omega)))
          rw [pow_succ]; omega

theorem indexOf_bitsOf (nbits m : Nat) : indexOf (bitsOf nbits m) = m % 2 ^ nbits := by
  refine Nat.eq_of_testBit_eq fun j => ?_
  rw [indexOf_testBit, bitsOf_length, Nat.testBit_mod_two_pow]
  by_cases h : j < nbits
  · rw [if_pos h, bitsOf_getD _ _ _ (by omega), show nbits - 1 - (nbits - 1 - j) = j by omega]; simp [h]
  · simp [h]

/-- C89 on the CPU: an encryption of `m 2^delta`, the extraction of `r + mlog` bits, then the circuit bootstrap and
vertical packing with `nout` tables of `2^(r + mlog)` entries. Output `t` is a ciphertext of entry `m` (modulo the number
of entries) of table `t`. One bootstrap key and one keyswitch key from the big key to the small one are used, as in the
fixture. `hQ` is that of C45, here for every bit, since the circuit bootstrap also bootstraps the last one. -/
theorem C89_cpu (bld : Build) (hw : w = 64) (T T' : Transform w) (N k b l logN bq lq : Nat) (hNN : N = 2 ^ logN)
    (hlog : logN + 2 < w) (D B S E : Int) (hT : T.Accurate N (l * (k + 1)) D B) (hD : 2 ^ (b - 1) ≤ D)
    (h : ValidParams w b l) (hB : 0 ≤ B) (hS0 : 0 ≤ S) (hE : 0 ≤ E) (hbq : ValidParams w bq lq)
    (N' mlog k' bc lc bk lk : Nat) (hN' : N' = 2 ^ mlog) (hc : ValidParams w bc lc) (hfit : bc * lc < w)
    (D' B' : Int) (hT' : T'.Accurate N' (lc * (k' + 1)) D' B') (hD' : 2 ^ (bc - 1) ≤ D') (hbk : ValidParams w bk lk)
    (s s' key bsk ksk ksks : List (BitVec w)) (hk : KeyFits N k s) (hS : KeyBound S s) (hs : Lwe.BinaryKey s)
    (hs' : Lwe.BinaryKey s') (hbsk : BskEnc N k b l s' s bsk E)
    (hksk : ksk.length = s.length * (lq * (s'.length + 1))) (eks : Nat → Nat → Int) (Bq : Nat)
    (hrow : ∀ i, i < s.length → ∀ j, j < lq → Lwe.phase s' (block (s'.length + 1) ksk (i * lq + j)) =
      s.getD i 0 * ((2 ^ (w - bq * (j + 1)) : Nat) : BitVec w) + ((eks i j : Int) : BitVec w))
    (heks : ∀ i, i < s.length → ∀ j, j < lq → |eks i j| ≤ Bq)
    (hkey : KeyFits N' k' key) (hdim : k' * N' = k * N) (A Bk : Int) (hA : 1 ≤ A) (hSk : KeyBound A key)
    (hksks : CbsKeys N' k' bk lk s key ksks Bk)
    (delta r nout m : Nat) (hfits : delta + (r + mlog) ≤ w) (hd : 0 < delta) (hbits : 0 < r + mlog) (hno : 0 < nout)
    (lweIn mid bigLut lweOut : List (BitVec w)) (hin : Lwe.Fits s lweIn)
    (hmid : mid.length = (r + mlog) * (s'.length + 1)) (hlut : bigLut.length = nout * (2 ^ r * N'))
    (hout : lweOut.length = nout * (k' * N' + 1)) (E0 e : Int) (he : |e| ≤ E0)
    (hp : Lwe.phase s lweIn = ((m * 2 ^ delta + e : Int) : BitVec w)) (K P : Int)
    (hK : K = s.length * 2 ^ (w - bq * lq - 1) + s.length * lq * 2 ^ (bq - 1) * Bq)
    (hP : P = s'.length * epBound w N k b l S E B 1)
    (hQ : ∀ i, i < r + mlog → (E0 + i * P) * 2 ^ (w - delta - i - 1) + K +
      (1 + weight s') * 2 ^ (w - logN - 2) < 2 ^ (w - 2)) :
    ∃ bits res, extractBits bld (fun o c => Lwe.keyswitchCiphertext bq lq (s'.length + 1) ksk o c)
        (fun o c a => bootstrap (cmuxFft T N k b l) N logN o c a (bskGgsws T N k l bsk)) N k delta (r + mlog)
        (s'.length + 1) mid lweIn = some bits ∧
      cbsVerticalPacking bld
        (fun buf c => circuitBootstrap bld
          (fun o c a => bootstrap (cmuxFft T N k b l) N logN o c a (bskGgsws T N k l bsk))
          (fun key o c => privateKeyswitchOne bk lk N' k' key o c) N k N' k' bc lc (w - 1) buf
          (chunks ((s.length + 1) * (lk * ((k' + 1) * N'))) ksks) c)
        (convert T' N')
        (fun luts o gs => verticalPacking bld (fun g o c => externalProduct T' N' k' bc lc o g c) N' k' luts o gs)
        N' (lc * ((k' + 1) * ((k' + 1) * N'))) (k * N) (k' * N' + 1) (s'.length + 1) bigLut lweOut bits = some res ∧
      res.length = nout * (k' * N' + 1) ∧
      ∀ t, t < nout → |(Lwe.phase key (block (k' * N' + 1) res t) -
          bigLut.getD (t * 2 ^ (r + mlog) + m % 2 ^ (r + mlog)) 0).toInt| ≤
        (r + mlog) * epBound w N' k' bc lc A (cbsBound w s.length bk lk P A Bk) B' 1 := by
  obtain ⟨bits, x1, x2, x3⟩ := C45_extract_bits bld T N k b l logN bq lq hNN hlog D B S E hT hD h hB hS0 hE hbq s s' bsk ksk
    lweIn mid hk hS hs hs' hbsk hksk eks Bq hrow heks delta (r + mlog) m hfits (.inl hd) hin hmid E0 e he hp K P hK hP
    (fun i hi => hQ i (by omega))
  have hex : ∀ j, ∃ f : Int, j < r + mlog →
      |f| ≤ (E0 + ((r + mlog - 1 - j : Nat) : Int) * P) * 2 ^ (w - delta - (r + mlog - 1 - j) - 1) + K ∧
      Lwe.phase s' (block (s'.length + 1) bits j) =
        (((if m.testBit (r + mlog - 1 - j) then 2 ^ (w - 1) else 0) + f : Int) : BitVec w) := by
    intro j
    by_cases hj : j < r + mlog
    · obtain ⟨f, f1, f2⟩ := x3 (r + mlog - 1 - j) (by omega)
      rw [show r + mlog - 1 - (r + mlog - 1 - j) = j by omega] at f2
      exact ⟨f, fun _ => ⟨f1, f2⟩⟩
    · exact ⟨0, fun h => absurd h hj⟩
  choose f hf using hex
  have hbl := bitsOf_length (r + mlog) m
  obtain ⟨res, r1, r2, r3⟩ := C51_pipeline bld hw T T' N k b l logN hNN hlog D B S E hT hD h hB hS0 hE N' mlog k' bc lc bk lk
    hN' (by omega) hc hfit D' B' hT' hD' hbk s' s key bsk ksks hs' hk hS hbsk hs hkey hdim A Bk hA hSk hksks
    (bitsOf (r + mlog) m) r nout hbl (by omega) (by omega) hno bigLut bits lweOut hlut (by rw [hbl, x2]) hout f
    (fun i hi => by
      rw [hbl] at hi
      rw [bitsOf_getD _ _ _ hi, (hf i hi).2])
    (fun i hi => by
      rw [hbl] at hi
      have h1 := (hf i hi).1
      have h2 := hQ (r + mlog - 1 - i) (by omega)
      linarith)
  refine ⟨bits, res, x1, r1, r2, fun t ht => ?_⟩
  have h3 := r3 t ht
  rwa [indexOf_bitsOf, ← hP, show 2 ^ r * N' = 2 ^ (r + mlog) by rw [pow_add, hN']] at h3

end Verif.Wop
