import Verif.Circuit.Props
import Verif.Ntt.Shipped
/-
C62, end to end: keys are generated, inputs encrypted, a program run, outputs decrypted.
-/
namespace Verif.Circuit
open Verif Verif.Poly Verif.Glwe Verif.Pbs Verif.Decomp Verif.Random

set_option linter.unusedSectionVars false

variable {w : Nat}

theorem randomNoise_bound (f : GaussianFn w) (E : Int) (hf : NoiseBound f E) (g g' : Src) (e : BitVec w)
    (h : randomNoise f g = some (e, g')) : |e.toInt| ≤ E := by
  rw [randomNoise] at h
  split at h
  · cases h
  · rename_i p g1 hp
    cases h
    rw [gaussianPair] at hp
    exact (gaussianLoop_bound f E hf _ _ _ _ hp).1

/-- C62, keys: the keyswitching key and the bootstrapping key that the engines generate, the latter by any number of
threads in any order, serve the two secret keys; their errors are at most those of the noise sources. -/
theorem C62_keys (S : Server w) (small big : List (BitVec w)) (B E : Int) (Bk : Nat) (f f' : GaussianFn w)
    (hf : NoiseBound f Bk) (hf' : NoiseBound f' E)
    (size : S.logN + 2 < w) (gadget : ValidParams w S.b S.l) (kgadget : ValidParams w S.bk S.lk)
    (transform : S.T.Accurate S.N (S.l * (S.k + 1)) (2 ^ (S.b - 1)) B) (hB : 0 ≤ B) (hE : 0 ≤ E)
    (smallLen : small.length = S.n) (bigLen : KeyFits S.N S.k big) (smallBin : Lwe.BinaryKey small)
    (bigBin : Lwe.BinaryKey big) (ksk0 bsk0 : List (BitVec w)) (g g1 h h1 : EncGen) (sched : List Nat)
    (levelSched : Nat → List Nat) (rowSched : Nat → Nat → List Nat)
    (hs : BskSchedules small.length S.l S.k sched levelSched rowSched)
    (hk0 : ksk0.length = big.length * (S.lk * (S.n + 1)))
    (hb0 : bsk0.length = small.length * (S.l * ((S.k + 1) * ((S.k + 1) * S.N))))
    (hksk : Lwe.fillKeyswitchKey f big small S.bk S.lk (S.n + 1) ksk0 g = some (S.ksk, g1))
    (hbsk : parFillBsk f' small big S.N S.k S.b S.l sched levelSched rowSched bsk0 h = some (S.bsk, h1)) :
    Serves S small big B E Bk := by
  have hN : 0 < S.N := by rw [Server.N]; positivity
  rw [← smallLen] at hksk hk0
  obtain ⟨es, he, hlen, hrow⟩ := Lwe.fillKsk_spec kgadget.level hk0 hksk
  have hes : ∀ x ∈ es, |x.toInt| ≤ (Bk : Int) :=
    rep_forall (fun x => |x.toInt| ≤ (Bk : Int)) _ (fun g g' a h => randomNoise_bound f Bk hf g g' a h) _ _ _ _ he
  refine ⟨size, gadget, kgadget, transform, ⟨hB, hE⟩, smallLen, bigLen, smallBin, bigBin, ?_, ?_, ?_⟩
  · exact C31_generated_key f' S.N S.k S.b S.l hN gadget.level E hf' small big bsk0 S.bsk h h1 sched levelSched rowSched
      bigLen hb0 hs hbsk
  · rw [← smallLen]; exact hlen
  · intro i hi j hj
    refine ⟨(es.getD (i * S.lk + j) 0).toInt, ?_, ?_⟩
    · by_cases hx : i * S.lk + j < es.length
      · rw [List.getD_eq_getElem?_getD, List.getElem?_eq_getElem hx]; exact hes _ (List.getElem_mem hx)
      · rw [List.getD_eq_getElem?_getD, List.getElem?_eq_none (by omega)]; simp
    · rw [← smallLen, BV.intCast_toInt]; exact hrow i hi j hj

/-- C62, inputs: encryptions of the messages, made from any states of the generators. -/
theorem C62_inputs (f : GaussianFn w) (b : Int) (hf : NoiseBound f b) (key : List (BitVec w)) (delta : Int)
    (cts : List (List (BitVec w))) (ms : List Int) (hlen : cts.length = ms.length)
    (henc : ∀ (i : Nat) (ct : List (BitVec w)) (m : Int), cts[i]? = some ct → ms[i]? = some m →
      ∃ out g g', Lwe.Fits key out ∧ Lwe.encryptLwe f key out ((delta * m : Int) : BitVec w) g = some (ct, g')) :
    AllHold key delta cts ms (List.replicate ms.length b) := by
  refine ⟨hlen, by simpa using hlen, fun i ct m x h1 h2 h3 => ?_⟩
  obtain ⟨out, g, g', ho, he⟩ := henc i ct m h1 h2
  obtain ⟨e, hn, hfit, hp⟩ := Lwe.encryptLwe_phase ho he
  have hx : x = b := by
    rw [List.getElem?_replicate] at h3
    split at h3
    · exact (Option.some.inj h3).symm
    · cases h3
  subst hx
  exact ⟨hfit, e.toInt, randomNoise_bound f x hf _ _ _ hn, by rw [hp, Int.cast_add, BV.intCast_toInt]⟩

/-- C62, end to end. The registers are encrypted inputs; after the program, every register whose computed noise bound
is below half a step decrypts and decodes to the result of the program on integers, modulo the number of messages. -/
theorem C62_end_to_end (S : Server w) (small big : List (BitVec w)) (B E : Int) (Bk : Nat)
    (hS : Serves S small big B E Bk) (p k : Nat) (hk : k ≤ w) (hp : 2 * p = 2 ^ (w - k))
    (f : GaussianFn w) (b : Int) (hf : NoiseBound f b) (cts : List (List (BitVec w))) (ms bs' : List Int)
    (hlen : cts.length = ms.length)
    (henc : ∀ (i : Nat) (ct : List (BitVec w)) (m : Int), cts[i]? = some ct → ms[i]? = some m →
      ∃ out g g', Lwe.Fits big out ∧ Lwe.encryptLwe f big out ((2 ^ k * m : Int) : BitVec w) g = some (ct, g'))
    (prog : List Instr)
    (hn : noise (2 ^ k) (ksBound S Bk) (switchBound S small) (pbsBound S B E) prog (List.replicate ms.length b) = some bs') :
    ∃ regs, exec S p (2 ^ k) prog cts = some regs ∧ regs.length = ms.length ∧
      ∀ (i : Nat) (x : Int), bs'[i]? = some x → 2 * x < 2 ^ k →
        ∃ ct y, regs[i]? = some ct ∧ Lwe.decryptLwe big ct = some y ∧
          (decode k y : Int) = (clear p prog ms).getD i 0 % (2 * p) := by
  obtain ⟨regs, r1, r2⟩ := C62_circuit S small big B E Bk hS p k hk hp prog cts ms _ bs'
    (C62_inputs f b hf big (2 ^ k) cts ms hlen henc) hn
  have hcl : ∀ (prog : List Instr) (ms : List Int), (clear p prog ms).length = ms.length := by
    intro prog
    induction prog with
    | nil => intro ms; rfl
    | cons i is ih => intro ms; rw [clear, ih, List.length_set]
  refine ⟨regs, r1, by rw [r2.1, hcl], fun i x hx hlt => ?_⟩
  obtain ⟨ct, c1, c2⟩ := reg_of_bound r2 hx
  obtain ⟨y, y1, y2⟩ := C62_decode hk big ct _ x c2 hlt
  refine ⟨ct, y, c1, y1, ?_⟩
  have : (2 : Int) * p = 2 ^ (w - k) := by exact_mod_cast hp
  rw [y2, this]

/-- A server of the NTT backend with one of the shipped 64-bit tables. -/
def nttServer64 (P : Ntt.Params) (k b l bk lk n : Nat) (ksk bsk : List (BitVec 64)) : Server 64 where
  T := Ntt.nttTransform 64 Ntt.MOD_64 (P.tables 128)
  logN := P.log
  k := k
  b := b
  l := l
  bk := bk
  lk := lk
  n := n
  ksk := ksk
  bsk := bsk

/-- C62, transform: the shipped 64-bit tables satisfy the hypothesis on the transform, for bases up to `2^47`. -/
theorem C62_ntt_transform (P : Ntt.Params) (hP : P ∈ Ntt.shipped64) (k b l bk lk n : Nat) (hb : b ≤ 47)
    (ksk bsk : List (BitVec 64)) :
    (nttServer64 P k b l bk lk n ksk bsk).logN + 2 < 64 ∧
    (nttServer64 P k b l bk lk n ksk bsk).T.Accurate (2 ^ P.log) (l * (k + 1)) (2 ^ (b - 1))
      (Ntt.nttError 64 Ntt.MOD_64.toNat (2 ^ P.log) (l * (k + 1)) (2 ^ (b - 1))) := by
  obtain ⟨h1, h2, h3⟩ := Ntt.shipped64_valid P hP
  have hlog : P.log + 2 < 64 := by
    have : P.log ∈ Ntt.shipped64.map (fun P => P.log) := List.mem_map_of_mem hP
    rw [show Ntt.shipped64.map (fun P => P.log) = [7, 8, 9, 10, 11, 12] from rfl] at this
    simp only [List.mem_cons, List.not_mem_nil, or_false] at this
    omega
  have hdig : 2 ^ (b - 1) * (2 ^ 64 - (Ntt.MOD_64.toNat : Int)) < 2 ^ (64 - 1) := by
    have e : (2 ^ 64 - (Ntt.MOD_64.toNat : Int)) = 114687 := by decide
    have : (2 : Int) ^ (b - 1) ≤ 2 ^ 46 := pow_le_pow_right₀ (by decide) (by omega)
    rw [e]; omega
  exact ⟨hlog, Ntt.ntt_accurate Ntt.MOD_64 h1 (P.tables 128) h2 h3 (l * (k + 1)) (2 ^ (b - 1)) (by positivity) hdig⟩

end Verif.Circuit
