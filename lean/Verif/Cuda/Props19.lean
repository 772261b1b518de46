import Verif.Cuda.WopPbs
import Verif.Cuda.Props18
import Verif.Wop.Props6
/-
C89: the wop-PBS of CUDA.
-/
namespace Verif.Cuda.Wp
open Verif Verif.Poly Verif.Glwe Verif.Pbs Verif.Decomp Verif.Wop Verif.Pks
open Verif.Cuda.Cbs (Sched Sched.Fair store part)
open Verif.Cuda.Be

variable {w : Nat}

/-- The entry that CUDA reads for the message `m`: bit `j` of its index is bit `j` of `m` for the lowest `logN` bits, and the
next `r` bits are those of `m` in the opposite order. -/
def SwappedIndex (logN r m idx : Nat) : Prop :=
  ∀ j, idx.testBit j = if j < logN then m.testBit j else if j < r + logN then m.testBit (2 * logN + r - 1 - j) else false

theorem swapped_bits (logN r m : Nat) :
    SwappedIndex logN r m (indexOf (((bitsOf (r + logN) m).take r).reverse ++ (bitsOf (r + logN) m).drop r)) := by
  intro j
  have hbl := bitsOf_length (r + logN) m
  have ht : ((bitsOf (r + logN) m).take r).reverse.length = r := by
    rw [List.length_reverse, List.length_take, hbl]; omega
  have hl : (((bitsOf (r + logN) m).take r).reverse ++ (bitsOf (r + logN) m).drop r).length = r + logN := by
    rw [List.length_append, ht, List.length_drop, hbl]; omega
  rw [indexOf_testBit, hl]
  by_cases h1 : j < logN
  · rw [if_pos h1, if_pos (by omega), List.getD_eq_getElem?_getD, List.getElem?_append_right (by omega), ht,
      List.getElem?_drop, ← List.getD_eq_getElem?_getD, bitsOf_getD _ _ _ (by omega)]
    congr 1; omega
  · rw [if_neg h1]
    by_cases h2 : j < r + logN
    · rw [if_pos h2, if_pos h2, List.getD_eq_getElem?_getD, List.getElem?_append_left (by omega),
        List.getElem?_reverse (by rw [List.length_take, hbl]; omega), List.length_take, hbl,
        List.getElem?_take_of_lt (by omega), ← List.getD_eq_getElem?_getD, bitsOf_getD _ _ _ (by omega)]
      congr 1; omega
    · rw [if_neg h2, if_neg h2]

/-- With at most one bit more than `log2 N`, the index is the message. -/
theorem swapped_small (logN r m idx : Nat) (hr : r ≤ 1) (h : SwappedIndex logN r m idx) : idx = m % 2 ^ (r + logN) := by
  refine Nat.eq_of_testBit_eq fun j => ?_
  rw [h j, Nat.testBit_mod_two_pow]
  by_cases h1 : j < logN
  · simp [h1, show j < r + logN by omega]
  · by_cases h2 : j < r + logN
    · have : j = logN ∧ r = 1 := by omega
      obtain ⟨rfl, rfl⟩ := this
      simp; congr 1; omega
    · simp [h1, h2]

theorem wopPbs_spec (σ : Sched (BitVec w)) (hσ : σ.Fair) (τ : Order) (hτ : τ.Complete) (hw : 32 ≤ w)
    (ks : Nat → List (BitVec w) → List (BitVec w) → Option (List (BitVec w)))
    (pbs : Nat → List (BitVec w) → List (BitVec w) → List (BitVec w) → Option (List (BitVec w)))
    (pbs' : List (BitVec w) → List (BitVec w) → List (BitVec w) → Option (List (BitVec w)))
    (T' : Transform w) (p : Params) (r m : Nat) (hNN : p.N = 2 ^ p.logN) (hlog : p.logN < 32) (hk0 : 0 < p.k)
    (hopt : p.opt ∣ p.N) (hdiv : 256 ∣ (p.k + 1) * p.N) (hc : ValidParams w p.baseCbs p.levelCbs) (hbc : p.baseCbs ≤ 31)
    (hpk : ValidParams w p.basePksk p.levelPksk) (D' B' : Int)
    (hT' : T'.Accurate p.N (p.levelCbs * (p.k + 1)) D' B') (hD' : 2 ^ (p.baseCbs - 1) ≤ D')
    (hx : p.extracted = r + p.logN) (hx0 : 0 < p.extracted) (hr : r < 31) (hmb : p.extracted ≤ p.messageBits)
    (hmw : p.messageBits < w) (hsm : p.extracted * p.levelCbs * (p.k + 1) ≤ 65535)
    (s s' key pksk : List (BitVec w)) (hs : Lwe.BinaryKey s) (hsl : KeyFits p.N p.k s) (hn : s'.length = p.n)
    (hk : KeyFits p.N p.k key) (A Bk : Int) (hA : 1 ≤ A) (hS : KeyBound A key)
    (hpksk : CbsKeys p.N p.k p.basePksk p.levelPksk s key pksk Bk)
    (E0 K Q P e : Int) (hks : ∀ i, KsOk (ks i) s s' K) (hpbs : ∀ i, SignPbs (pbs i) p.N p.k s' s Q P)
    (hpbs' : SignPbs (fun o c a => pbs' a c o) p.N p.k s' s Q P)
    (hQ : ∀ i, i < p.extracted → (E0 + i * P) * 2 ^ (p.messageBits - i - 1) + K + Q < 2 ^ (w - 2))
    (indexes : Nat → Nat) (hidx : ∀ z, z < p.extracted * p.levelCbs → indexes z = z % p.levelCbs)
    (B : Bufs w) (hz : ∀ q, q < p.k * p.N → B.lut q = 0#w) (mem : Nat → Nat → BitVec w) (treeMem : Nat → List (BitVec w))
    (ggswMem : DVec (BitVec w))
    (hg : ggswMem.length = p.extracted * (p.levelCbs * ((p.k + 1) * ((p.k + 1) * p.N))))
    (lweIn lut lweOut : List (BitVec w)) (hlut : lut.length = 2 ^ p.extracted) (hlo : lweOut.length = p.k * p.N + 1)
    (hin : Lwe.Fits s lweIn) (he : |e| ≤ E0)
    (hp : Lwe.phase s lweIn = ((m * 2 ^ (w - p.messageBits) + e : Int) : BitVec w)) :
    ∃ out idx, hostWopPbs σ τ ks pbs pbs' T' p indexes B mem treeMem ggswMem lweIn pksk lut lweOut = some (.ok [out]) ∧
      Lwe.Fits key out ∧ SwappedIndex p.logN r m idx ∧
      |(Lwe.phase key out - lut.getD idx 0).toInt| ≤
        p.extracted * epBound w p.N p.k p.baseCbs p.levelCbs A (cbsBound w s.length p.basePksk p.levelPksk P A Bk) B' 2 := by
  obtain ⟨N, k, n, opt, logN, bk, lk, bc, lc, mb, nx⟩ := p
  simp only at *
  subst hn hx
  have hN0 : 0 < N := by rw [hNN]; positivity
  have hlc := hc.level
  have hfit := hc.fits
  obtain ⟨bits, x1, x3⟩ := hostExtract_spec σ hσ ks pbs N k s'.length opt (w - mb) (r + logN) m hopt hN0 hk0 s s' hsl rfl E0 K
    Q P e hks hpbs (by omega) (by omega) (.inl (by omega))
    (fun i hi => by rw [show w - (w - mb) - i - 1 = mb - i - 1 by omega]; exact hQ i (by omega)) lweIn hin he hp B hz
  have hex : ∀ j, ∃ f : Int, j < r + logN →
      |f| ≤ (E0 + ((r + logN - 1 - j : Nat) : Int) * P) * 2 ^ (mb - (r + logN - 1 - j) - 1) + K ∧
      Lwe.phase s' (part bits (s'.length + 1) j) =
        (((if m.testBit (r + logN - 1 - j) then 2 ^ (w - 1) else 0) + f : Int) : BitVec w) := by
    intro j
    by_cases hj : j < r + logN
    · obtain ⟨f, f1, f2⟩ := x3 (r + logN - 1 - j) (by omega)
      rw [show r + logN - 1 - (r + logN - 1 - j) = j by omega] at f2
      rw [show w - (w - mb) - (r + logN - 1 - j) - 1 = mb - (r + logN - 1 - j) - 1 by omega] at f1
      exact ⟨f, fun _ => ⟨f1, f2⟩⟩
    · exact ⟨0, fun h => absurd h hj⟩
  choose f hf using hex
  have hbl := bitsOf_length (r + logN) m
  obtain ⟨res, r1, r2, r3⟩ := Cbs.circuitBootstrap_spec σ hσ τ hτ pbs' N k opt bk lk bc lc (w - 1) (r + logN) hN0 hk0 hopt
    (by omega) (by omega) hlc hfit hpk hdiv hsm s' s key pksk hsl Q P A Bk hpbs' hs hk hA hS hpksk indexes hidx mem bits
    ggswMem hg (fun i => if m.testBit (r + logN - 1 - i) then 1 else 0) f
    (fun i hi => by rw [(hf i hi).2]; congr 1; cases m.testBit (r + logN - 1 - i) <;> simp)
    (fun i hi => by
      rw [show w - (w - 1) - 1 = 0 by omega, pow_zero, mul_one]
      have h1 := (hf i hi).1
      have h2 := hQ (r + logN - 1 - i) (by omega)
      linarith)
  obtain ⟨outs, o1, o2, o3⟩ := Vp.C85_vertical_packing_partial T' N logN k bc lc r 1 hNN hw hc hbc D' B' A
    (cbsBound w s.length bk lk P A Bk) hT' hD' (by omega) key hk hS res (bitsOf (r + logN) m) hbl hr hlog (by rw [hbl, r2]) (by
      rw [hbl]
      refine ⟨by simp [hbl], fun i hi => ?_⟩
      rw [hbl] at hi
      rw [Am.getD_map_range _ _ _ _ hi]
      obtain ⟨err, e1, e2⟩ := r3 i hi
      refine ⟨err, e1, ?_⟩
      have hbit : ((if m.testBit (r + logN - 1 - i) = true then 1 else 0 : Nat) % 2 = 1) ↔
          m.testBit (r + logN - 1 - i) = true := by
        cases m.testBit (r + logN - 1 - i) <;> simp
      simp only [hbit] at e2
      rw [bitsOf_getD _ _ _ hi]
      exact e2) lut (by rw [hlut, hNN, pow_add, Nat.one_mul]) treeMem [lweOut] rfl (by simpa using hlo)
  obtain ⟨out, rfl⟩ := List.length_eq_one_iff.1 o2
  obtain ⟨q1, q2⟩ := o3 0 (by omega)
  refine ⟨out, _, ?_, by simpa using q1, swapped_bits logN r m, ?_⟩
  · have hpos : 0 < (k + 1) * N := Nat.mul_pos (by omega) hN0
    have hge : 256 ≤ (k + 1) * N := Nat.le_of_dvd hpos hdiv
    have hcount : 0 < (r + logN) * lc * (k + 1) := Nat.mul_pos (Nat.mul_pos hx0 hlc) (by omega)
    rw [hostWopPbs]
    simp only [Params.delta, Params.cbsDelta]
    rw [x1]
    simp only
    rw [Cbs.cbsVerticalPacking, if_neg (by omega), r1]
    simp only
    rw [hbl] at o1
    rw [Vp.mapM_id_some _ res rfl, Option.bind_some, o1]
    rfl
  · have hb0 : block (2 ^ r * N) lut 0 = lut := by
      rw [block, Nat.zero_mul, List.drop_zero, List.take_of_length_le]
      rw [hlut, hNN, pow_add]
    rw [hbl, hb0] at q2
    simpa using q2

/-- C89 on CUDA, 64-bit words: one ciphertext, an encryption of `m` at the position that the number of bits of the message
gives; `r + log2 N` bits of it are extracted. The output is an encryption of the entry at the place `idx` of the table:
that of the message if `r ≤ 1`, else the `r` bits above `log2 N` are read in the opposite order (C85). Missing: `r ≥ 2`,
what C85, C86 and C88 miss, several inputs, and tables of the bit extraction whose masks are not zero (C87). -/
theorem C89_cuda_64_partial (σ : Sched (BitVec 64)) (hσ : σ.Fair) (τ : Order) (hτ : τ.Complete) (G : Am.GpuTransform 64)
    (T T' : Transform 64) (p : Params) (b l bq lq maxShared r m : Nat) (hNN : p.N = 2 ^ p.logN) (hlog : p.logN + 1 < 32) (hb : b ≤ 31)
    (hk0 : 0 < p.k) (hopt : p.opt ∣ p.N) (hdiv : 256 ∣ (p.k + 1) * p.N) (D B S E : Int)
    (hG : G.Accurate p.N (l * (p.k + 1)) D B) (hlen : ∀ q e, q.length = p.N → (G.addBack q e).length = p.N)
    (hT : T.Accurate p.N (l * (p.k + 1)) D B) (hD : 2 ^ (b - 1) ≤ D) (h : ValidParams 64 b l) (hS0 : 0 ≤ S)
    (hbq : ValidParams 64 bq lq) (hpk : ValidParams 64 p.basePksk p.levelPksk)
    (hc : ValidParams 64 p.baseCbs p.levelCbs) (hbc : p.baseCbs ≤ 31) (D' B' : Int)
    (hT' : T'.Accurate p.N (p.levelCbs * (p.k + 1)) D' B') (hD' : 2 ^ (p.baseCbs - 1) ≤ D')
    (hx : p.extracted = r + p.logN) (hx0 : 0 < p.extracted) (hr : r < 31) (hmb : p.extracted ≤ p.messageBits)
    (hmw : p.messageBits < 64) (hsm : p.extracted * p.levelCbs * (p.k + 1) ≤ 65535)
    (s s' key bsk ksk pksk : List (BitVec 64)) (hs : Lwe.BinaryKey s) (hs' : Lwe.BinaryKey s') (hsl : KeyFits p.N p.k s)
    (hSs : KeyBound S s) (hn : s'.length = p.n) (hdim : s'.length % 128 = 0) (hsh : 8 * (s'.length + 1) ≤ maxShared)
    (hfo : s'.length + 1 < 2 ^ 31) (hfk : s.length * (lq * (s'.length + 1)) < 2 ^ 31) (hbsk : BskEnc p.N p.k b l s' s bsk E)
    (hksk : ksk.length = s.length * (lq * (s'.length + 1))) (eks : Nat → Nat → Int) (Bq : Nat)
    (hrow : ∀ i, i < s.length → ∀ j, j < lq → Lwe.phase s' (block (s'.length + 1) ksk (i * lq + j)) =
      s.getD i 0 * ((2 ^ (64 - bq * (j + 1)) : Nat) : BitVec 64) + ((eks i j : Int) : BitVec 64))
    (heks : ∀ i, i < s.length → ∀ j, j < lq → |eks i j| ≤ Bq)
    (hk : KeyFits p.N p.k key) (A Bk : Int) (hA : 1 ≤ A) (hS : KeyBound A key)
    (hpksk : CbsKeys p.N p.k p.basePksk p.levelPksk s key pksk Bk)
    (ksSched : Nat → List Nat) (memL : Nat → Low.Place → G.E) (fft reg : G.E)
    (lowSched : Nat → List (BitVec 64) → List (BitVec 64) → List (Low.Block p.k l 1))
    (hrun : ∀ i c a, LowRuns G p.N p.k b l s'.length (convert G.toTransform p.N bsk) (memL i) fft reg (lowSched i c a) c a)
    (E0 e : Int) (he : |e| ≤ E0) (K P : Int)
    (hK : K = s.length * 2 ^ (64 - bq * lq - 1) + s.length * lq * 2 ^ (bq - 1) * Bq)
    (hP : P = s'.length * epBound 64 p.N p.k b l S E B 1)
    (hQ : ∀ i, i < p.extracted → (E0 + i * P) * 2 ^ (p.messageBits - i - 1) + K +
      (1 + weight s') * (2 ^ (62 - p.logN) + 2 ^ 10) < 2 ^ 62)
    (indexes : Nat → Nat) (hidx : ∀ z, z < p.extracted * p.levelCbs → indexes z = z % p.levelCbs)
    (Bf : Bufs 64) (hz : ∀ q, q < p.k * p.N → Bf.lut q = 0#64) (mem : Nat → Nat → BitVec 64)
    (treeMem : Nat → List (BitVec 64)) (ggswMem : DVec (BitVec 64))
    (hg : ggswMem.length = p.extracted * (p.levelCbs * ((p.k + 1) * ((p.k + 1) * p.N))))
    (lweIn lut lweOut : List (BitVec 64)) (hlut : lut.length = 2 ^ p.extracted) (hlo : lweOut.length = p.k * p.N + 1)
    (hin : Lwe.Fits s lweIn) (hp : Lwe.phase s lweIn = ((m * 2 ^ (64 - p.messageBits) + e : Int) : BitVec 64)) :
    ∃ out idx, hostWopPbs σ τ (fun i => gpuKeyswitch maxShared (ksSched i) bq lq s.length s'.length ksk)
        (fun i o c a => lowBootstrap G p.N p.k b l s'.length (convert G.toTransform p.N bsk) (memL i) fft reg (lowSched i c a)
          o c a)
        (fun a c o => Am.bootstrap T p.N p.k b l (convert T p.N bsk) a c o)
        T' p indexes Bf mem treeMem ggswMem lweIn pksk lut lweOut = some (.ok [out]) ∧
      Lwe.Fits key out ∧ SwappedIndex p.logN r m idx ∧ (r ≤ 1 → idx = m % 2 ^ p.extracted) ∧
      |(Lwe.phase key out - lut.getD idx 0).toInt| ≤
        p.extracted * epBound 64 p.N p.k p.baseCbs p.levelCbs A
          (cbsBound 64 s.length p.basePksk p.levelPksk P A Bk) B' 2 := by
  have hN0 : 0 < p.N := by rw [hNN]; positivity
  have hsl' : s.length = p.k * p.N := hsl
  subst hK hP
  obtain ⟨out, idx, o1, o2, o3, o4⟩ := wopPbs_spec σ hσ τ hτ (by omega)
    (fun i => gpuKeyswitch maxShared (ksSched i) bq lq s.length s'.length ksk)
    (fun i o c a => lowBootstrap G p.N p.k b l s'.length (convert G.toTransform p.N bsk) (memL i) fft reg (lowSched i c a) o c a)
    (fun a c o => Am.bootstrap T p.N p.k b l (convert T p.N bsk) a c o) T' p r m hNN (by omega) hk0 hopt hdiv hc hbc hpk D' B' hT'
    hD' hx hx0 hr hmb hmw hsm s s' key pksk hs hsl hn hk A Bk hA hS hpksk E0 _ _ _ e
    (fun i => gpuKeyswitch_ok maxShared (ksSched i) bq lq hbq s s' ksk (by rw [hsl']; exact Nat.mul_pos hk0 hN0) hfo hfk
      hsh hdim hksk hs eks Bq hrow heks)
    (fun i => lowSign_64 G p.N p.k b l p.logN hNN hlog hb D B S E hG hlen hD h hS0 s' s bsk hsl hSs hs' hbsk (memL i) fft reg
      (lowSched i) (hrun i))
    (Cbs.signPbs_64 T p.N p.k b l p.logN hNN hlog hb D B S E hT hD h hS0 s' s bsk hsl hSs hs' hbsk) hQ indexes hidx Bf hz mem
    treeMem ggswMem hg lweIn lut lweOut hlut hlo hin he hp
  exact ⟨out, idx, o1, o2, o3, fun h1 => by rw [hx]; exact swapped_small p.logN r m idx h1 o3, o4⟩

/-- C89 on CUDA, 32-bit words. -/
theorem C89_cuda_32_partial (σ : Sched (BitVec 32)) (hσ : σ.Fair) (τ : Order) (hτ : τ.Complete) (G : Am.GpuTransform 32)
    (T T' : Transform 32) (p : Params) (b l bq lq maxShared r m : Nat) (hNN : p.N = 2 ^ p.logN) (hlog : p.logN + 2 < 32)
    (hk0 : 0 < p.k) (hopt : p.opt ∣ p.N) (hdiv : 256 ∣ (p.k + 1) * p.N) (D B S E : Int)
    (hG : G.Accurate p.N (l * (p.k + 1)) D B) (hlen : ∀ q e, q.length = p.N → (G.addBack q e).length = p.N)
    (hT : T.Accurate p.N (l * (p.k + 1)) D B) (hD : 2 ^ (b - 1) ≤ D) (h : ValidParams 32 b l) (hS0 : 0 ≤ S)
    (hbq : ValidParams 32 bq lq) (hpk : ValidParams 32 p.basePksk p.levelPksk)
    (hc : ValidParams 32 p.baseCbs p.levelCbs) (hbc : p.baseCbs ≤ 31) (D' B' : Int)
    (hT' : T'.Accurate p.N (p.levelCbs * (p.k + 1)) D' B') (hD' : 2 ^ (p.baseCbs - 1) ≤ D')
    (hx : p.extracted = r + p.logN) (hx0 : 0 < p.extracted) (hr : r < 31) (hmb : p.extracted ≤ p.messageBits)
    (hmw : p.messageBits < 32) (hsm : p.extracted * p.levelCbs * (p.k + 1) ≤ 65535)
    (s s' key bsk ksk pksk : List (BitVec 32)) (hs : Lwe.BinaryKey s) (hs' : Lwe.BinaryKey s') (hsl : KeyFits p.N p.k s)
    (hSs : KeyBound S s) (hn : s'.length = p.n) (hdim : s'.length % 128 = 0) (hsh : 4 * (s'.length + 1) ≤ maxShared)
    (hfo : s'.length + 1 < 2 ^ 31) (hfk : s.length * (lq * (s'.length + 1)) < 2 ^ 31) (hbsk : BskEnc p.N p.k b l s' s bsk E)
    (hksk : ksk.length = s.length * (lq * (s'.length + 1))) (eks : Nat → Nat → Int) (Bq : Nat)
    (hrow : ∀ i, i < s.length → ∀ j, j < lq → Lwe.phase s' (block (s'.length + 1) ksk (i * lq + j)) =
      s.getD i 0 * ((2 ^ (32 - bq * (j + 1)) : Nat) : BitVec 32) + ((eks i j : Int) : BitVec 32))
    (heks : ∀ i, i < s.length → ∀ j, j < lq → |eks i j| ≤ Bq)
    (hk : KeyFits p.N p.k key) (A Bk : Int) (hA : 1 ≤ A) (hS : KeyBound A key)
    (hpksk : CbsKeys p.N p.k p.basePksk p.levelPksk s key pksk Bk)
    (ksSched : Nat → List Nat) (memL : Nat → Low.Place → G.E) (fft reg : G.E)
    (lowSched : Nat → List (BitVec 32) → List (BitVec 32) → List (Low.Block p.k l 1))
    (hrun : ∀ i c a, LowRuns G p.N p.k b l s'.length (convert G.toTransform p.N bsk) (memL i) fft reg (lowSched i c a) c a)
    (E0 e : Int) (he : |e| ≤ E0) (K P : Int)
    (hK : K = s.length * 2 ^ (32 - bq * lq - 1) + s.length * lq * 2 ^ (bq - 1) * Bq)
    (hP : P = s'.length * epBound 32 p.N p.k b l S E B 1)
    (hQ : ∀ i, i < p.extracted → (E0 + i * P) * 2 ^ (p.messageBits - i - 1) + K +
      (1 + weight s') * 2 ^ (30 - p.logN) < 2 ^ 30)
    (indexes : Nat → Nat) (hidx : ∀ z, z < p.extracted * p.levelCbs → indexes z = z % p.levelCbs)
    (Bf : Bufs 32) (hz : ∀ q, q < p.k * p.N → Bf.lut q = 0#32) (mem : Nat → Nat → BitVec 32)
    (treeMem : Nat → List (BitVec 32)) (ggswMem : DVec (BitVec 32))
    (hg : ggswMem.length = p.extracted * (p.levelCbs * ((p.k + 1) * ((p.k + 1) * p.N))))
    (lweIn lut lweOut : List (BitVec 32)) (hlut : lut.length = 2 ^ p.extracted) (hlo : lweOut.length = p.k * p.N + 1)
    (hin : Lwe.Fits s lweIn) (hp : Lwe.phase s lweIn = ((m * 2 ^ (32 - p.messageBits) + e : Int) : BitVec 32)) :
    ∃ out idx, hostWopPbs σ τ (fun i => gpuKeyswitch maxShared (ksSched i) bq lq s.length s'.length ksk)
        (fun i o c a => lowBootstrap G p.N p.k b l s'.length (convert G.toTransform p.N bsk) (memL i) fft reg (lowSched i c a)
          o c a)
        (fun a c o => Am.bootstrap T p.N p.k b l (convert T p.N bsk) a c o)
        T' p indexes Bf mem treeMem ggswMem lweIn pksk lut lweOut = some (.ok [out]) ∧
      Lwe.Fits key out ∧ SwappedIndex p.logN r m idx ∧ (r ≤ 1 → idx = m % 2 ^ p.extracted) ∧
      |(Lwe.phase key out - lut.getD idx 0).toInt| ≤
        p.extracted * epBound 32 p.N p.k p.baseCbs p.levelCbs A
          (cbsBound 32 s.length p.basePksk p.levelPksk P A Bk) B' 2 := by
  have hN0 : 0 < p.N := by rw [hNN]; positivity
  have hsl' : s.length = p.k * p.N := hsl
  subst hK hP
  obtain ⟨out, idx, o1, o2, o3, o4⟩ := wopPbs_spec σ hσ τ hτ (by omega)
    (fun i => gpuKeyswitch maxShared (ksSched i) bq lq s.length s'.length ksk)
    (fun i o c a => lowBootstrap G p.N p.k b l s'.length (convert G.toTransform p.N bsk) (memL i) fft reg (lowSched i c a) o c a)
    (fun a c o => Am.bootstrap T p.N p.k b l (convert T p.N bsk) a c o) T' p r m hNN (by omega) hk0 hopt hdiv hc hbc hpk D' B' hT'
    hD' hx hx0 hr hmb hmw hsm s s' key pksk hs hsl hn hk A Bk hA hS hpksk E0 _ _ _ e
    (fun i => gpuKeyswitch_ok maxShared (ksSched i) bq lq hbq s s' ksk (by rw [hsl']; exact Nat.mul_pos hk0 hN0) hfo hfk
      hsh hdim hksk hs eks Bq hrow heks)
    (fun i => lowSign_32 G p.N p.k b l p.logN hNN hlog D B S E hG hlen hD h hS0 s' s bsk hsl hSs hs' hbsk (memL i) fft reg
      (lowSched i) (hrun i))
    (Cbs.signPbs_32 T p.N p.k b l p.logN hNN hlog D B S E hT hD h hS0 s' s bsk hsl hSs hs' hbsk) hQ indexes hidx Bf hz mem
    treeMem ggswMem hg lweIn lut lweOut hlut hlo hin he hp
  exact ⟨out, idx, o1, o2, o3, fun h1 => by rw [hx]; exact swapped_small p.logN r m idx h1 o3, o4⟩

/-- C89 is violated on CUDA: with two bits or more above `log2 N`, the message `N` reads the entry `2^(r - 1) N`. -/
theorem C89_order_violated (logN r idx : Nat) (hr : 2 ≤ r) (h : SwappedIndex logN r (2 ^ logN) idx) :
    idx = 2 ^ (r - 1 + logN) ∧ idx ≠ 2 ^ logN % 2 ^ (r + logN) := by
  have h1 : idx = 2 ^ (r - 1 + logN) := by
    refine Nat.eq_of_testBit_eq fun j => ?_
    rw [h j, show Nat.testBit (2 ^ (r - 1 + logN)) j = decide (r - 1 + logN = j) from Nat.testBit_two_pow]
    by_cases h1 : j < logN
    · rw [if_pos h1, Nat.testBit_two_pow]
      simp; omega
    · rw [if_neg h1]
      by_cases h2 : j < r + logN
      · rw [if_pos h2, Nat.testBit_two_pow]
        exact decide_eq_decide.2 (by omega)
      · rw [if_neg h2]; exact (decide_eq_false (by omega)).symm
  refine ⟨h1, ?_⟩
  rw [h1, Nat.mod_eq_of_lt (Nat.pow_lt_pow_right (by omega) (by omega))]
  exact fun h2 => absurd (Nat.pow_right_injective (le_refl 2) h2) (by omega)

/-! ### The hypotheses can be met -/

/-- The hypotheses of C89 hold together, on the CPU and on CUDA: 64-bit words, `N = 128`, eight bits, a small key of 128 bits,
one level for the bootstrap, messages of ten bits with an error of 1000. -/
example : let s : List (BitVec 64) := List.replicate 128 1
    let s' : List (BitVec 64) := 1 :: List.replicate 127 0
    let key : List (BitVec 64) := List.replicate 128 0
    let p : Params := ⟨128, 1, 128, 4, 7, 10, 3, 5, 5, 10, 8⟩
    let G := Am.exactGpu 64 128
    let P : Int := 128 * epBound 64 128 1 31 1 1 0 0 1
    let K : Int := 128 * 2 ^ (64 - 20 * 2 - 1) + 128 * 2 * 2 ^ 19 * 0
    ∃ (bsk ksk pksk : List (BitVec 64)) (lowSched : Nat → List (BitVec 64) → List (BitVec 64) → List (Low.Block 1 1 1)),
      s'.length = p.n ∧ KeyFits p.N p.k s ∧ KeyFits p.N p.k key ∧ KeyBound 1 s ∧ KeyBound 1 key ∧ Lwe.BinaryKey s ∧
      Lwe.BinaryKey s' ∧ G.Accurate p.N (1 * (p.k + 1)) (2 ^ 30) 0 ∧
      (exactTransform 64 128).Accurate p.N (p.levelCbs * (p.k + 1)) 16 0 ∧
      BskEnc p.N p.k 31 1 s' s bsk 0 ∧ CbsKeys p.N p.k p.basePksk p.levelPksk s key pksk 0 ∧
      ksk.length = s.length * (2 * (s'.length + 1)) ∧
      (∀ i, i < s.length → ∀ j, j < 2 → Lwe.phase s' (block (s'.length + 1) ksk (i * 2 + j)) =
        s.getD i 0 * ((2 ^ (64 - 20 * (j + 1)) : Nat) : BitVec 64) + (((0 : Int) : Int) : BitVec 64)) ∧
      (∀ i c a, LowRuns G p.N p.k 31 1 s'.length (convert G.toTransform p.N bsk) (fun _ => []) [] [] (lowSched i c a) c a) ∧
      256 ∣ (p.k + 1) * p.N ∧ p.extracted = 1 + p.logN ∧ p.extracted ≤ p.messageBits ∧
      Lwe.phase s (List.replicate 128 0 ++ [180 * 2 ^ 54 + 1000]) = ((180 * 2 ^ (64 - p.messageBits) + 1000 : Int) : BitVec 64) ∧
      (∀ i : Nat, i < p.extracted → (1000 + i * P) * 2 ^ (p.messageBits - i - 1) + K +
        (1 + weight s') * (2 ^ (62 - p.logN) + 2 ^ 10) < 2 ^ 62) ∧
      (∀ i : Nat, i < 1 + 7 → (1000 + i * P) * 2 ^ (64 - 54 - i - 1) + K + (1 + weight s') * 2 ^ (64 - 7 - 2) < 2 ^ (64 - 2)) := by
  have hp0 : Lwe.phase (List.replicate 128 1#64) (List.replicate 128 (0 : BitVec 64) ++ [180 * 2 ^ 54 + 1000]) =
      ((180 * 2 ^ 54 + 1000 : Int) : BitVec 64) := by
    rw [Lwe.phase_append _ _ _ (by simp), Lwe.multisum_zero]; decide +kernel
  intro s s' key p G P K
  obtain ⟨ksk, h1, h2⟩ := exists_ksk 20 2 s s'
  obtain ⟨pksk, h3⟩ := Cbs.exists_cbsKeys 128 1 10 3 (by decide) (by decide) s key
  obtain ⟨sched, h4⟩ := lowRuns_exists G 128 1 31 s'.length (convert G.toTransform 128 (s'.map (gadgetGgsw 128 1 31 1)).flatten)
    (fun _ _ => []) [] []
  have hb : Lwe.BinaryKey s' := by
    intro x hx
    rcases List.mem_cons.1 hx with h | h
    · exact .inr h
    · exact .inl (List.eq_of_mem_replicate h)
  have hwt : weight s' = 1 := by
    have : weight (1#64 :: List.replicate 127 0#64) = 1 := by decide +kernel
    exact this
  refine ⟨_, ksk, pksk, sched, by simp only [s', p, List.length_cons, List.length_replicate], ?_, ?_, ?_, ?_, ?_, hb,
    Am.exactGpu_accurate 128 2 (by decide) (2 ^ 30), exact_accurate _ _ (by decide) _,
    gadget_bsk 128 1 31 1 (by decide) (by decide) s' s, h3, h1, h2, h4, by decide, by decide, by decide, hp0, ?_, ?_⟩
  · simp only [KeyFits, s, p, List.length_replicate]
  · simp only [KeyFits, key, p, List.length_replicate]
  · intro x hx
    rw [List.eq_of_mem_replicate hx]; decide
  · intro x hx
    rw [List.eq_of_mem_replicate hx]; decide
  · intro x hx
    rw [List.eq_of_mem_replicate hx]; right; rfl
  · intro i hi
    rw [hwt]
    have hi' : i < 8 := hi
    interval_cases i <;> decide +kernel
  · intro i hi
    rw [hwt]
    have hi' : i < 8 := hi
    interval_cases i <;> decide +kernel

-- nine bits: the message 0 1 followed by 7 bits reads the entry 1 0 followed by them
example : SwappedIndex 7 2 (128 + 5) (256 + 5) := by
  have h := swapped_bits 7 2 (128 + 5)
  rwa [show indexOf (((bitsOf (2 + 7) (128 + 5)).take 2).reverse ++ (bitsOf (2 + 7) (128 + 5)).drop 2) = 256 + 5 by
    decide +kernel] at h

end Verif.Cuda.Wp
