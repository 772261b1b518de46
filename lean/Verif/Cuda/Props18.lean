import Verif.Cuda.BeLoop
import Verif.Cuda.KeyswitchGpus
import Verif.Cuda.Props15
/-
C88: the bit extraction of CUDA.
-/
namespace Verif.Cuda.Be
open Verif Verif.Poly Verif.Glwe Verif.Pbs Verif.Decomp Verif.Wop
open Verif.Cuda.Cbs (Sched Sched.Fair store)
open Verif.Cuda.Grid

variable {w : Nat}

theorem mapM_some {α : Type} (l : List α) : (l.map some).mapM id = some l := by
  induction l with
  | nil => rfl
  | cons a l ih => rw [List.map_cons, List.mapM_cons, ih]; rfl

/-- The keyswitch of one ciphertext: that of the CPU, or that of the ciphertext without its body. -/
theorem gpuKeyswitch_spec (maxShared : Nat) (sched : List Nat) (b l : Nat) (hv : ValidParams w b l)
    (s s' ksk o c : List (BitVec w)) (hd : 0 < s.length) (hfo : s'.length + 1 < 2 ^ 31)
    (hfk : s.length * (l * (s'.length + 1)) < 2 ^ 31) (hsh : w / 8 * (s'.length + 1) ≤ maxShared)
    (lk : ksk.length = s.length * (l * (s'.length + 1))) (ho : Lwe.Fits s' o) (hc : Lwe.Fits s c) :
    ∃ r, gpuKeyswitch maxShared sched b l s.length s'.length ksk o c = some r ∧ Lwe.Fits s' r ∧
      (Lwe.keyswitchCiphertext b l (s'.length + 1) ksk o c = some r ∨ s'.length % 128 ≠ 0) ∧
      (sched = bodyFirst (w := w) ⟨b, l, s.length, s'.length, c.map some, ksk.map some, 0⟩ → s'.length % 128 ≠ 0 →
        Lwe.keyswitchCiphertext b l (s'.length + 1) ksk o (withoutBody c) = some r) := by
  have hc' : c.length = s.length + 1 := hc
  have ho' : o.length = s'.length + 1 := ho
  have hf : KsFits (⟨b, l, s.length, s'.length, c.map some, ksk.map some, 0⟩ : KsArgs w) :=
    ⟨hd, by simp [hc'], by simp only [List.length_map, lk]; rw [Nat.mul_assoc]⟩
  obtain ⟨st, r, e1, e2, e3, e4, e5⟩ := runBlock_ct ⟨b, l, s.length, s'.length, c.map some, ksk.map some, 0⟩ hf hv ksk c rfl
    lk hc' (fun i hi => by
      have hi' : i < c.length := by
        have : i ≤ s.length := hi
        omega
      simp [inWord, hi']) sched (List.replicate (s'.length + 1) (some 0#w)) (by simp)
  refine ⟨r, ?_, e3, ?_, fun h1 h2 => e5 h1 h2 o ho'⟩
  · rw [gpuKeyswitch, hostKeyswitch, if_neg (by rw [Nat.mul_one, Nat.mul_assoc]; omega),
      if_neg (by rw [List.length_map, ho']; omega), if_neg (by omega)]
    simp only [List.replicate_one, runBlocks, e1, Out.bind, e2]
    rw [List.flatten_cons, List.flatten_nil, List.append_nil, List.drop_eq_nil_of_le (by simp [ho']), List.append_nil,
      mapM_some]
  · rcases e4 with h | ⟨h, _⟩
    · exact .inl (h o ho')
    · exact .inr h

theorem gpuKeyswitch_ok (maxShared : Nat) (sched : List Nat) (b l : Nat) (hv : ValidParams w b l)
    (s s' ksk : List (BitVec w)) (hd : 0 < s.length) (hfo : s'.length + 1 < 2 ^ 31)
    (hfk : s.length * (l * (s'.length + 1)) < 2 ^ 31) (hsh : w / 8 * (s'.length + 1) ≤ maxShared)
    (hdim : s'.length % 128 = 0) (lk : ksk.length = s.length * (l * (s'.length + 1))) (hs : Lwe.BinaryKey s)
    (eks : Nat → Nat → Int) (Bk : Nat)
    (hrow : ∀ i, i < s.length → ∀ j, j < l → Lwe.phase s' (block (s'.length + 1) ksk (i * l + j)) =
      s.getD i 0 * ((2 ^ (w - b * (j + 1)) : Nat) : BitVec w) + ((eks i j : Int) : BitVec w))
    (heks : ∀ i, i < s.length → ∀ j, j < l → |eks i j| ≤ Bk) :
    KsOk (gpuKeyswitch maxShared sched b l s.length s'.length ksk) s s'
      (s.length * 2 ^ (w - b * l - 1) + s.length * l * 2 ^ (b - 1) * Bk) := by
  intro o c ho hc
  obtain ⟨r, r1, r2, r3, -⟩ := gpuKeyswitch_spec maxShared sched b l hv s s' ksk o c hd hfo hfk hsh lk ho hc
  rcases r3 with h | h
  · obtain ⟨r', F, q1, -, q3, q4⟩ := Lwe.C16_error_bound b l hv s s' ksk o c eks Bk lk hrow heks hs ho hc
    rw [h] at q1
    obtain rfl := Option.some.inj q1
    exact ⟨r, r1, r2, F, q4, q3⟩
  · exact absurd hdim h

/-- The runs of the blocks of a bootstrap that C81 covers: all blocks finish, and (with several levels) no block writes a
place of the join buffers that another has still to read. -/
def LowRuns (G : Am.GpuTransform w) (N k b l n : Nat) (key : List G.E) (mem : Low.Place → G.E) (fft reg : G.E)
    (sched : List (Low.Block k l 1)) (c a : List (BitVec w)) : Prop :=
  let p := lowProgram G N k b l n key c
  let s0 := lowStart G N k b l n key mem fft reg c a
  (l ≤ 1 ∨ n ≤ 1 ∨ Calm p sched s0) ∧ Done p (run p sched s0)

theorem lowSign_64 (G : Am.GpuTransform 64) (N k b l logN : Nat) (hNN : N = 2 ^ logN) (hlog : logN + 1 < 32)
    (hb : b ≤ 31) (D B S E : Int) (hG : G.Accurate N (l * (k + 1)) D B)
    (hlen : ∀ p e, p.length = N → (G.addBack p e).length = N) (hD : 2 ^ (b - 1) ≤ D) (h : ValidParams 64 b l)
    (hS0 : 0 ≤ S) (lweKey key bsk : List (BitVec 64)) (hk : KeyFits N k key) (hS : KeyBound S key)
    (hs : Lwe.BinaryKey lweKey) (hbsk : BskEnc N k b l lweKey key bsk E) (mem : Low.Place → G.E) (fft reg : G.E)
    (sched : List (BitVec 64) → List (BitVec 64) → List (Low.Block k l 1))
    (hrun : ∀ c a, LowRuns G N k b l lweKey.length (convert G.toTransform N bsk) mem fft reg (sched c a) c a) :
    SignPbs (fun o c a => lowBootstrap G N k b l lweKey.length (convert G.toTransform N bsk) mem fft reg (sched c a) o c a)
      N k lweKey key ((1 + weight lweKey) * (2 ^ (62 - logN) + 2 ^ 10)) (lweKey.length * epBound 64 N k b l S E B 1) := by
  intro out c α β e ho hc hp he
  have hN0 : 0 < N := by rw [hNN]; positivity
  obtain ⟨t1, t2⟩ := C31_trivial_accumulator N k hN0 key (List.replicate N (0#64 - α)) (by simp)
  obtain ⟨q1, q2⟩ := hrun c (signAccumulator N k α)
  obtain ⟨r, r1, r2, r3⟩ := Am.C81_lookup_64_partial G N k b l 1 logN hNN hlog hb D B S E hG hlen hD h hS0 lweKey key bsk
    (List.replicate N (0#64 - α)) out (fun _ => signAccumulator N k α) (fun _ => c) hk hS hs hbsk 0 t1 (by simp) t2 hc ho
    mem _ (fun _ => rfl) (sched c (signAccumulator N k α)) _ rfl q1 q2
    (if β then α else -α) (fun d hd hcl => sign_position hNN (by omega) _ α β e _ hp he d hd (by
      rw [show 64 - logN - 1 = 63 - logN by omega]; exact hcl))
  refine ⟨r, ?_, r2, _, r3, ?_⟩
  · simp only [lowBootstrap]
    rw [dif_pos h.level]; exact r1
  · rw [BV.intCast_toInt]; ring

theorem lowSign_32 (G : Am.GpuTransform 32) (N k b l logN : Nat) (hNN : N = 2 ^ logN) (hlog : logN + 2 < 32)
    (D B S E : Int) (hG : G.Accurate N (l * (k + 1)) D B)
    (hlen : ∀ p e, p.length = N → (G.addBack p e).length = N) (hD : 2 ^ (b - 1) ≤ D) (h : ValidParams 32 b l)
    (hS0 : 0 ≤ S) (lweKey key bsk : List (BitVec 32)) (hk : KeyFits N k key) (hS : KeyBound S key)
    (hs : Lwe.BinaryKey lweKey) (hbsk : BskEnc N k b l lweKey key bsk E) (mem : Low.Place → G.E) (fft reg : G.E)
    (sched : List (BitVec 32) → List (BitVec 32) → List (Low.Block k l 1))
    (hrun : ∀ c a, LowRuns G N k b l lweKey.length (convert G.toTransform N bsk) mem fft reg (sched c a) c a) :
    SignPbs (fun o c a => lowBootstrap G N k b l lweKey.length (convert G.toTransform N bsk) mem fft reg (sched c a) o c a)
      N k lweKey key ((1 + weight lweKey) * 2 ^ (30 - logN)) (lweKey.length * epBound 32 N k b l S E B 1) := by
  intro out c α β e ho hc hp he
  have hN0 : 0 < N := by rw [hNN]; positivity
  obtain ⟨t1, t2⟩ := C31_trivial_accumulator N k hN0 key (List.replicate N (0#32 - α)) (by simp)
  obtain ⟨q1, q2⟩ := hrun c (signAccumulator N k α)
  obtain ⟨r, r1, r2, r3⟩ := Am.C81_lookup_32_partial G N k b l 1 logN hNN hlog D B S E hG hlen hD h hS0 lweKey key bsk
    (List.replicate N (0#32 - α)) out (fun _ => signAccumulator N k α) (fun _ => c) hk hS hs hbsk 0 t1 (by simp) t2 hc ho
    mem _ (fun _ => rfl) (sched c (signAccumulator N k α)) _ rfl q1 q2
    (if β then α else -α) (fun d hd hcl => sign_position hNN hlog _ α β e _ hp he d hd (by
      rw [show 32 - logN - 1 = 31 - logN by omega]; exact hcl))
  refine ⟨r, ?_, r2, _, r3, ?_⟩
  · simp only [lowBootstrap]
    rw [dif_pos h.level]; exact r1
  · rw [BV.intCast_toInt]; ring

/-- C88, 64-bit words: `lweIn` is an encryption of `m 2^delta` with an error at most `E0`. For every order of the threads,
the first `nbits (n + 1)` words of the output are ciphertexts of the lowest `nbits` bits of `m` at the top bit, most
significant first; the rest of the vector and the vectors of the other GPUs do not change. `hQ` is that of C45: the
errors leave the bootstrapped phases on the right side. `ksSched i` and `lowSched i` are the schedules of the keyswitch
and of the bootstrap in iteration `i`. Missing: output dimensions that are not multiples of 128 (C71), bootstraps with
the race of C76, `delta = 0`, several GPUs. -/
theorem C88_extract_bits_64_partial (σ : Sched (BitVec 64)) (hσ : σ.Fair) (G : Am.GpuTransform 64) (N k b l logN : Nat)
    (hNN : N = 2 ^ logN) (hlog : logN + 1 < 32) (hb : b ≤ 31) (hk0 : 0 < k) (D B S E : Int)
    (hG : G.Accurate N (l * (k + 1)) D B) (hlen : ∀ p e, p.length = N → (G.addBack p e).length = N) (hD : 2 ^ (b - 1) ≤ D)
    (h : ValidParams 64 b l) (hS0 : 0 ≤ S) (opt bk lk maxShared : Nat) (hopt : opt ∣ N) (hbk : ValidParams 64 bk lk)
    (s s' bsk ksk lweIn : List (BitVec 64)) (hk : KeyFits N k s) (hS : KeyBound S s) (hs : Lwe.BinaryKey s)
    (hs' : Lwe.BinaryKey s') (hdim : s'.length % 128 = 0) (hsh : 8 * (s'.length + 1) ≤ maxShared)
    (hfo : s'.length + 1 < 2 ^ 31) (hfk : s.length * (lk * (s'.length + 1)) < 2 ^ 31) (hbsk : BskEnc N k b l s' s bsk E)
    (hksk : ksk.length = s.length * (lk * (s'.length + 1))) (eks : Nat → Nat → Int) (Bk : Nat)
    (hrow : ∀ i, i < s.length → ∀ j, j < lk → Lwe.phase s' (block (s'.length + 1) ksk (i * lk + j)) =
      s.getD i 0 * ((2 ^ (64 - bk * (j + 1)) : Nat) : BitVec 64) + ((eks i j : Int) : BitVec 64))
    (heks : ∀ i, i < s.length → ∀ j, j < lk → |eks i j| ≤ Bk)
    (ksSched : Nat → List Nat) (mem : Nat → Low.Place → G.E) (fft reg : G.E)
    (lowSched : Nat → List (BitVec 64) → List (BitVec 64) → List (Low.Block k l 1))
    (hrun : ∀ i c a, LowRuns G N k b l s'.length (convert G.toTransform N bsk) (mem i) fft reg (lowSched i c a) c a)
    (delta nbits m : Nat) (hw : delta + nbits ≤ 64) (hdw : delta < 64) (hd : 0 < delta ∨ nbits ≤ 1)
    (hin : Lwe.Fits s lweIn) (o : DVec (BitVec 64)) (rest : List (DVec (BitVec 64)))
    (ho : nbits * (s'.length + 1) ≤ o.length) (junk : Nat → BitVec 64) (E0 e : Int) (he : |e| ≤ E0)
    (hp : Lwe.phase s lweIn = ((m * 2 ^ delta + e : Int) : BitVec 64)) (K P : Int)
    (hK : K = s.length * 2 ^ (64 - bk * lk - 1) + s.length * lk * 2 ^ (bk - 1) * Bk)
    (hP : P = s'.length * epBound 64 N k b l S E B 1)
    (hQ : ∀ i, i + 1 < nbits → (E0 + i * P) * 2 ^ (64 - delta - i - 1) + K +
      (1 + weight s') * (2 ^ (62 - logN) + 2 ^ 10) < 2 ^ 62) :
    ∃ res : List (BitVec 64), executeExtractBits σ
        (fun i => gpuKeyswitch maxShared (ksSched i) bk lk s.length s'.length ksk)
        (fun i o c a => lowBootstrap G N k b l s'.length (convert G.toTransform N bsk) (mem i) fft reg (lowSched i c a) o c a)
        N k s'.length opt delta nbits lweIn (o :: rest) junk =
          some (.ok ((res.map some ++ o.drop (nbits * (s'.length + 1))) :: rest)) ∧
      res.length = nbits * (s'.length + 1) ∧
      ∀ i, i < nbits → ∃ f : Int, |f| ≤ (E0 + i * P) * 2 ^ (64 - delta - i - 1) + K ∧
        Lwe.phase s' (block (s'.length + 1) res (nbits - 1 - i)) =
          (((if m.testBit i then 2 ^ 63 else 0) + f : Int) : BitVec 64) := by
  have hN : 0 < N := by rw [hNN]; positivity
  have hsl : s.length = k * N := hk
  subst hK hP
  exact extract_spec σ hσ _ _ N k s'.length opt delta nbits m hopt hN hk0 s s' hsl rfl E0 _ _ _ e
    (fun i => gpuKeyswitch_ok maxShared (ksSched i) bk lk hbk s s' ksk (by rw [hsl]; exact Nat.mul_pos hk0 hN) hfo hfk
      hsh hdim hksk hs eks Bk hrow heks)
    (fun i => lowSign_64 G N k b l logN hNN hlog hb D B S E hG hlen hD h hS0 s' s bsk hk hS hs' hbsk (mem i) fft reg
      (lowSched i) (hrun i)) hw hdw hd hQ lweIn hin he hp o rest ho junk

/-- C88, 32-bit words. -/
theorem C88_extract_bits_32_partial (σ : Sched (BitVec 32)) (hσ : σ.Fair) (G : Am.GpuTransform 32) (N k b l logN : Nat)
    (hNN : N = 2 ^ logN) (hlog : logN + 2 < 32) (hk0 : 0 < k) (D B S E : Int)
    (hG : G.Accurate N (l * (k + 1)) D B) (hlen : ∀ p e, p.length = N → (G.addBack p e).length = N) (hD : 2 ^ (b - 1) ≤ D)
    (h : ValidParams 32 b l) (hS0 : 0 ≤ S) (opt bk lk maxShared : Nat) (hopt : opt ∣ N) (hbk : ValidParams 32 bk lk)
    (s s' bsk ksk lweIn : List (BitVec 32)) (hk : KeyFits N k s) (hS : KeyBound S s) (hs : Lwe.BinaryKey s)
    (hs' : Lwe.BinaryKey s') (hdim : s'.length % 128 = 0) (hsh : 4 * (s'.length + 1) ≤ maxShared)
    (hfo : s'.length + 1 < 2 ^ 31) (hfk : s.length * (lk * (s'.length + 1)) < 2 ^ 31) (hbsk : BskEnc N k b l s' s bsk E)
    (hksk : ksk.length = s.length * (lk * (s'.length + 1))) (eks : Nat → Nat → Int) (Bk : Nat)
    (hrow : ∀ i, i < s.length → ∀ j, j < lk → Lwe.phase s' (block (s'.length + 1) ksk (i * lk + j)) =
      s.getD i 0 * ((2 ^ (32 - bk * (j + 1)) : Nat) : BitVec 32) + ((eks i j : Int) : BitVec 32))
    (heks : ∀ i, i < s.length → ∀ j, j < lk → |eks i j| ≤ Bk)
    (ksSched : Nat → List Nat) (mem : Nat → Low.Place → G.E) (fft reg : G.E)
    (lowSched : Nat → List (BitVec 32) → List (BitVec 32) → List (Low.Block k l 1))
    (hrun : ∀ i c a, LowRuns G N k b l s'.length (convert G.toTransform N bsk) (mem i) fft reg (lowSched i c a) c a)
    (delta nbits m : Nat) (hw : delta + nbits ≤ 32) (hdw : delta < 32) (hd : 0 < delta ∨ nbits ≤ 1)
    (hin : Lwe.Fits s lweIn) (o : DVec (BitVec 32)) (rest : List (DVec (BitVec 32)))
    (ho : nbits * (s'.length + 1) ≤ o.length) (junk : Nat → BitVec 32) (E0 e : Int) (he : |e| ≤ E0)
    (hp : Lwe.phase s lweIn = ((m * 2 ^ delta + e : Int) : BitVec 32)) (K P : Int)
    (hK : K = s.length * 2 ^ (32 - bk * lk - 1) + s.length * lk * 2 ^ (bk - 1) * Bk)
    (hP : P = s'.length * epBound 32 N k b l S E B 1)
    (hQ : ∀ i, i + 1 < nbits → (E0 + i * P) * 2 ^ (32 - delta - i - 1) + K +
      (1 + weight s') * 2 ^ (30 - logN) < 2 ^ 30) :
    ∃ res : List (BitVec 32), executeExtractBits σ
        (fun i => gpuKeyswitch maxShared (ksSched i) bk lk s.length s'.length ksk)
        (fun i o c a => lowBootstrap G N k b l s'.length (convert G.toTransform N bsk) (mem i) fft reg (lowSched i c a) o c a)
        N k s'.length opt delta nbits lweIn (o :: rest) junk =
          some (.ok ((res.map some ++ o.drop (nbits * (s'.length + 1))) :: rest)) ∧
      res.length = nbits * (s'.length + 1) ∧
      ∀ i, i < nbits → ∃ f : Int, |f| ≤ (E0 + i * P) * 2 ^ (32 - delta - i - 1) + K ∧
        Lwe.phase s' (block (s'.length + 1) res (nbits - 1 - i)) =
          (((if m.testBit i then 2 ^ 31 else 0) + f : Int) : BitVec 32) := by
  have hN : 0 < N := by rw [hNN]; positivity
  have hsl : s.length = k * N := hk
  subst hK hP
  exact extract_spec σ hσ _ _ N k s'.length opt delta nbits m hopt hN hk0 s s' hsl rfl E0 _ _ _ e
    (fun i => gpuKeyswitch_ok maxShared (ksSched i) bk lk hbk s s' ksk (by rw [hsl]; exact Nat.mul_pos hk0 hN) hfo hfk
      hsh hdim hksk hs eks Bk hrow heks)
    (fun i => lowSign_32 G N k b l logN hNN hlog D B S E hG hlen hD h hS0 s' s bsk hk hS hs' hbsk (mem i) fft reg
      (lowSched i) (hrun i)) hw hdw hd hQ lweIn hin he hp o rest ho junk

/-- C88 is violated: the engine gives the GPU the first vector of the output and the number of all bits. With two GPUs or
more and two bits or more, this vector ends before the first ciphertext that is written. -/
theorem C88_multi_gpu_violated (σ : Sched (BitVec w))
    (ks : Nat → List (BitVec w) → List (BitVec w) → Option (List (BitVec w)))
    (pbs : Nat → List (BitVec w) → List (BitVec w) → List (BitVec w) → Option (List (BitVec w)))
    (N k n opt delta nbits A : Nat) (lweIn outs : List (BitVec w)) (junk : Nat → BitVec w) (hA : 2 ≤ A) (hn : 2 ≤ nbits)
    (hx : outs.length = nbits * (n + 1)) (hfit : nbits * (n + 1) < 2 ^ 32)
    (hr : nbits % min nbits A < nbits / min nbits A) :
    ∃ vecs, toGpus A (n + 1) outs = .ok vecs ∧
      executeExtractBits σ ks pbs N k n opt delta nbits lweIn vecs junk = some .overrun := by
  obtain ⟨vecs, v, h1, h2, h3⟩ := Cbs.C86_multi_gpu_violated A (n + 1) nbits outs hA hn (by omega) hx hfit hr
  refine ⟨vecs, h1, ?_⟩
  cases vecs with
  | nil => simp at h2
  | cons o rest =>
    simp only [List.getElem?_cons_zero, Option.some.injEq] at h2
    subst h2
    rw [executeExtractBits, if_pos]
    have h4 : o.length ≤ (nbits - 1) * (n + 1) := List.getElem?_eq_none_iff.1 h3
    have h5 : (nbits - 1 + 1) * (n + 1) = nbits * (n + 1) := by rw [Nat.sub_add_cancel (by omega)]
    rw [Nat.succ_mul] at h5
    omega

/-- C88 is violated: with two bits or more of an encryption at position 0, a shift is by `delta - 1 + 0`, a large number
for an unsigned `delta`, and the operation has no defined result. The checks of the engine accept it. -/
theorem C88_no_padding_violated (σ : Sched (BitVec w))
    (ks : Nat → List (BitVec w) → List (BitVec w) → Option (List (BitVec w)))
    (pbs : Nat → List (BitVec w) → List (BitVec w) → List (BitVec w) → Option (List (BitVec w)))
    (N k n opt nbits : Nat) (hn : 2 ≤ nbits) (lweIn : List (BitVec w)) (o : DVec (BitVec w))
    (rest : List (DVec (BitVec w))) (ho : nbits * (n + 1) ≤ o.length) (junk : Nat → BitVec w) :
    executeExtractBits σ ks pbs N k n opt 0 nbits lweIn (o :: rest) junk = none := by
  obtain ⟨t, rfl⟩ : ∃ t, nbits = t + 2 := ⟨nbits - 2, by omega⟩
  rw [executeExtractBits, if_neg (by omega)]
  simp only
  rw [hostExtractBits]
  split
  · rfl
  · simp only
    rw [loop]
    simp only [show t + 2 - (t + 1 + 1) = 0 by omega]
    split
    · rfl
    · rw [if_neg (by omega)]; rfl

/-- C88 is violated: for a key of a length that is not a multiple of 128 there are schedules of the keyswitch that lose the
body of the ciphertext (C71): the bit is wrong by the shifted body of the input. -/
theorem C88_body_lost_violated (σ : Sched (BitVec w)) (hσ : σ.Fair)
    (pbs : Nat → List (BitVec w) → List (BitVec w) → List (BitVec w) → Option (List (BitVec w)))
    (N k opt bk lk maxShared delta : Nat) (hN : 0 < N) (hk0 : 0 < k) (hopt : opt ∣ N) (hbk : ValidParams w bk lk)
    (s s' ksk lweIn : List (BitVec w)) (hsl : s.length = k * N) (hdim : s'.length % 128 ≠ 0)
    (hsh : w / 8 * (s'.length + 1) ≤ maxShared) (hfo : s'.length + 1 < 2 ^ 31)
    (hfk : s.length * (lk * (s'.length + 1)) < 2 ^ 31) (hksk : ksk.length = s.length * (lk * (s'.length + 1)))
    (hdw : delta < w) (hin : Lwe.Fits s lweIn) (o : DVec (BitVec w)) (rest : List (DVec (BitVec w)))
    (ho : s'.length + 1 ≤ o.length) (junk : Nat → BitVec w) :
    ∃ (ksSched : List Nat) (res good : List (BitVec w)),
      executeExtractBits σ (fun _ => gpuKeyswitch maxShared ksSched bk lk s.length s'.length ksk) pbs N k s'.length opt
        delta 1 lweIn (o :: rest) junk = some (.ok ((res.map some ++ o.drop (1 * (s'.length + 1))) :: rest)) ∧
      Lwe.keyswitchCiphertext bk lk (s'.length + 1) ksk (List.replicate (s'.length + 1) 0)
        (lweIn.map fun x : BitVec w => x <<< (w - delta - 1)) = some good ∧
      Lwe.phase s' res = Lwe.phase s' good - (lweIn.getD s.length 0) <<< (w - delta - 1) := by
  have hl : lweIn.length = k * N + 1 := by rw [← hsl]; exact hin
  have hfirst : first (store (σ (shiftWrites k N opt (1#w <<< (w - delta - 1)) fun i => lweIn.getD i 0)) (fun _ => 0#w))
      (k * N + 1) = lweIn.map fun x : BitVec w => x <<< (w - delta - 1) := by
    apply List.ext_getElem (by rw [first_length, List.length_map, hl])
    intro j h1 h2
    rw [first_length] at h1
    rw [List.getElem_map]
    simp only [first, List.getElem_map, List.getElem_range]
    rw [shift_word σ hσ N k opt hopt hN hk0 _ _ _ j h1, List.getD_eq_getElem?_getD,
      List.getElem?_eq_getElem (by omega), Option.getD_some, BV.shl_eq_mul (1#w), show (1#w : BitVec w) = 1 from rfl, one_mul,
      BV.shl_eq_mul]
  have hfit : Lwe.Fits s (lweIn.map fun x : BitVec w => x <<< (w - delta - 1)) := by
    rw [Lwe.Fits, List.length_map]; exact hin
  have hfz : Lwe.Fits s' (List.replicate (s'.length + 1) 0#w) := by simp [Lwe.Fits]
  have hfzero : first (fun _ => 0#w) (s'.length + 1) = List.replicate (s'.length + 1) 0#w := by
    rw [first, List.map_const', List.length_range]
  obtain ⟨r, r1, r2, -, r4⟩ := gpuKeyswitch_spec maxShared (bodyFirst (w := w) ⟨bk, lk, s.length, s'.length, [], [], 0⟩) bk lk
    hbk s s' ksk (List.replicate (s'.length + 1) 0#w) _ (by rw [hsl]; exact Nat.mul_pos hk0 hN) hfo hfk hsh hksk hfz hfit
  have hlost := r4 rfl hdim
  obtain ⟨mask, body, hsplit, hm⟩ := Lwe.exists_split (s := s) hfit
  obtain ⟨c, c1, _, c3⟩ := Lwe.keyswitch_phase bk lk hbk.level s.length s' ksk (List.replicate (s'.length + 1) 0#w) mask body hksk
    hfz hm
  obtain ⟨c', d1, _, d3⟩ := Lwe.keyswitch_phase bk lk hbk.level s.length s' ksk (List.replicate (s'.length + 1) 0#w) mask 0 hksk
    hfz hm
  have hw : withoutBody (lweIn.map fun x : BitVec w => x <<< (w - delta - 1)) = mask ++ [0] := by
    rw [withoutBody, hsplit, List.dropLast_append_of_ne_nil (by simp)]
    simp
  have hbody : (lweIn.getD s.length 0) <<< (w - delta - 1) = body := by
    have h1 := congrArg (fun l : List (BitVec w) => l.getD s.length 0) hsplit
    simp only [List.getD_eq_getElem?_getD, List.getElem?_map] at h1
    rw [← hm, List.getElem?_append_right le_rfl, hm, List.getElem?_eq_getElem (by rw [hl]; omega)] at h1
    rw [List.getD_eq_getElem?_getD, List.getElem?_eq_getElem (by rw [hl]; omega)]
    simpa using h1
  rw [hw, d1] at hlost
  refine ⟨bodyFirst (w := w) ⟨bk, lk, s.length, s'.length, [], [], 0⟩, r, c, ?_, by rw [hsplit]; exact c1, ?_⟩
  · rw [executeExtractBits, if_neg (by omega)]
    simp only
    rw [hostExtractBits, if_neg (by omega)]
    simp only
    rw [loop]
    simp only [Nat.sub_self, hfirst, hfzero]
    rw [r1]
    simp only [if_true, Option.map_some]
    congr 3
    have hrl : r.length = s'.length + 1 := r2
    have : first (store (σ (smallWrites (s'.length + 1) (1 - 0 - 1) (overwrite r fun _ => 0#w))) junk) (1 * (s'.length + 1)) =
        r := by
      have h0 := small_part σ hσ (s'.length + 1) 0 (overwrite r fun _ => 0#w) junk
      rw [Nat.one_mul]
      rw [Cbs.part] at h0
      simp only [Nat.zero_mul, Nat.zero_add] at h0
      refine h0.trans ?_
      rw [← hrl]; exact first_overwrite r _
    rw [this]
  · rw [← Option.some.inj hlost, d3, c3, hbody]
    ring

/-! ### The hypotheses can be met -/

/-- With one level every bootstrap has a schedule as in `LowRuns`, whatever its input. -/
theorem lowRuns_exists (G : Am.GpuTransform w) (N k b n : Nat) (key : List G.E) (mem : Nat → Low.Place → G.E) (fft reg : G.E) :
    ∃ sched : Nat → List (BitVec w) → List (BitVec w) → List (Low.Block k 1 1),
      ∀ i c a, LowRuns G N k b 1 n key (mem i) fft reg (sched i c a) c a := by
  have h : ∀ i c a, ∃ sched, LowRuns G N k b 1 n key (mem i) fft reg sched c a := by
    intro i c a
    obtain ⟨more, hm⟩ := Low.C76_no_deadlock (Am.kernel G N k b 1 key fun _ => c) n k 1 1 (mem i)
      (fun bl => ⟨Am.firstAcc N n (fun _ => a) (fun _ => c) bl.1 bl.2.1 bl.2.2, fft, reg⟩) []
    exact ⟨more, .inl le_rfl, hm⟩
  choose sched hs using h
  exact ⟨sched, hs⟩

/-- A keyswitch key without noise. -/
theorem exists_ksk (b l : Nat) (s s' : List (BitVec w)) :
    ∃ ksk : List (BitVec w), ksk.length = s.length * (l * (s'.length + 1)) ∧
      ∀ i, i < s.length → ∀ j, j < l → Lwe.phase s' (block (s'.length + 1) ksk (i * l + j)) =
        s.getD i 0 * ((2 ^ (w - b * (j + 1)) : Nat) : BitVec w) + (((0 : Int) : Int) : BitVec w) := by
  obtain ⟨ksk, h1, h2⟩ := exists_blocks (α := BitVec w) (s.length * l) (s'.length + 1) (by omega)
    (fun t c => Lwe.phase s' c = s.getD (t / l) 0 * ((2 ^ (w - b * (t % l + 1)) : Nat) : BitVec w)) (fun t _ =>
      ⟨List.replicate s'.length 0 ++ [s.getD (t / l) 0 * ((2 ^ (w - b * (t % l + 1)) : Nat) : BitVec w)], by simp, by
        rw [Lwe.phase_append s' _ _ (by simp), Lwe.multisum_zero, sub_zero]⟩)
  refine ⟨ksk, by rw [h1, Nat.mul_assoc], fun i hi j hj => ?_⟩
  have hlt : i * l + j < s.length * l := by
    have : (i + 1) * l ≤ s.length * l := Nat.mul_le_mul_right _ hi
    rw [Nat.succ_mul] at this
    omega
  rw [h2 _ hlt, Cbs.div_of hj, Cbs.mod_of hj]
  simp

-- three bits at position 26, an output dimension of 128, one level
example : let s : List (BitVec 32) := [1, 0, 1, 1]
    let s' : List (BitVec 32) := 1 :: List.replicate 127 0
    let G := Am.exactGpu 32 4
    let P : Int := 128 * epBound 32 4 1 24 1 1 0 0 1
    let K : Int := 4 * 2 ^ (32 - 10 * 2 - 1) + 4 * 2 * 2 ^ 9 * 0
    ∃ (bsk ksk : List (BitVec 32)) (lowSched : Nat → List (BitVec 32) → List (BitVec 32) → List (Low.Block 1 1 1)),
      s'.length = 128 ∧ KeyFits 4 1 s ∧ Lwe.BinaryKey s ∧ Lwe.BinaryKey s' ∧ G.Accurate 4 2 (2 ^ 23) 0 ∧
      BskEnc 4 1 24 1 s' s bsk 0 ∧ ksk.length = s.length * (2 * (s'.length + 1)) ∧
      (∀ i, i < s.length → ∀ j, j < 2 → Lwe.phase s' (block (s'.length + 1) ksk (i * 2 + j)) =
        s.getD i 0 * ((2 ^ (32 - 10 * (j + 1)) : Nat) : BitVec 32) + (((0 : Int) : Int) : BitVec 32)) ∧
      (∀ i c a, LowRuns G 4 1 24 1 s'.length (convert G.toTransform 4 bsk) (fun _ => []) [] [] (lowSched i c a) c a) ∧
      Lwe.phase s [0, 0, 0, 0, 5 * 2 ^ 26 + 3] = ((5 * 2 ^ 26 + 3 : Int) : BitVec 32) ∧
      ∀ i : Nat, i + 1 < 3 → (3 + i * P) * 2 ^ (32 - 26 - i - 1) + K + (1 + weight s') * 2 ^ (30 - 2) < 2 ^ 30 := by
  have hb0 : Lwe.BinaryKey ([1, 0, 1, 1] : List (BitVec 32)) := by
    intro x hx
    simp only [List.mem_cons, List.not_mem_nil, or_false] at hx
    rcases hx with h | h | h | h
    · exact .inr h
    · exact .inl h
    · exact .inr h
    · exact .inr h
  have hp0 : Lwe.phase ([1, 0, 1, 1] : List (BitVec 32)) [0, 0, 0, 0, 5 * 2 ^ 26 + 3] = ((5 * 2 ^ 26 + 3 : Int) : BitVec 32) := by
    decide +kernel
  intro s s' G P K
  obtain ⟨ksk, h1, h2⟩ := exists_ksk 10 2 s s'
  obtain ⟨sched, hs⟩ := lowRuns_exists G 4 1 24 s'.length (convert G.toTransform 4 (s'.map (gadgetGgsw 4 1 24 1)).flatten)
    (fun _ _ => []) [] []
  have hb : Lwe.BinaryKey s' := by
    intro x hx
    rcases List.mem_cons.1 hx with h | h
    · exact .inr h
    · exact .inl (List.eq_of_mem_replicate h)
  have hwt : weight s' = 1 := by
    have : weight (1#32 :: List.replicate 127 0#32) = 1 := by decide +kernel
    exact this
  refine ⟨_, ksk, sched, by simp only [s', List.length_cons, List.length_replicate], rfl, hb0, hb,
    Am.exactGpu_accurate 4 2 (by decide) (2 ^ 23), gadget_bsk 4 1 24 1 (by decide) (by decide) s' s, h1, h2, hs, hp0, ?_⟩
  intro i hi
  rw [hwt]
  have : i = 0 ∨ i = 1 := by omega
  rcases this with rfl | rfl <;> decide +kernel

end Verif.Cuda.Be
