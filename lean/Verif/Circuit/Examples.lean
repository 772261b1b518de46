import Verif.Circuit.Client
/-
The hypotheses of C62 are satisfiable, and a complete run.
-/
namespace Verif.Circuit
open Verif Verif.Poly Verif.Glwe Verif.Pbs Verif.Decomp Verif.Random

/-- `N = 16`, 16-bit words, messages modulo 8 at scale `2^13`. -/
def demo (ksk bsk : List (BitVec 16)) : Server 16 where
  T := exactTransform 16 16
  logN := 4
  k := 1
  b := 2
  l := 6
  bk := 4
  lk := 3
  n := 2
  ksk := ksk
  bsk := bsk

def demoSmall : List (BitVec 16) := [1, 0]
def demoBig : List (BitVec 16) := [1, 0, 1, 1, 0, 0, 1, 0, 1, 1, 1, 0, 1, 0, 0, 1]
def demoNoise : GaussianFn 16 := { accept := fun _ _ => true, value := fun _ _ => (1#16, 0#16 - 1#16) }
def demoGen (seed : Nat) : EncGen :=
  { mask := ⟨fun p => BitVec.ofNat 8 (p * p * (2 * seed + 1) + p / 3), 1, 100000⟩, noise := ⟨fun _ => 1#8, 1, 1000000⟩ }

/-- Three registers: `r2 := 2 r0 + r1 - 1; r2 := T[r2]; r0 := T'[r2]; r1 := -r0`. -/
def demoProg : List Instr :=
  [.mul 2 0 2, .addInto 2 1, .addPlainInto 2 (-1), .lookup 2 2 [1, 0, 3, 2], .lookup 0 2 [3, 2, 1, 1], .neg 1 0]

/-- Key generation, encryption, run, decryption. -/
def demoRun (ms : List Int) : Option (List Nat) := do
  let (ksk, _) ← Lwe.fillKeyswitchKey demoNoise demoBig demoSmall 4 3 3 (List.replicate (16 * 9) 0) (demoGen 0)
  let (bsk, _) ← fillBsk demoNoise demoSmall demoBig 16 1 2 6 (List.replicate (2 * (6 * (2 * 32))) 0) (demoGen 5)
  let cts ← ms.mapIdx (fun i m => (i, m)) |>.mapM fun x =>
    (Lwe.encryptLwe demoNoise demoBig (List.replicate 17 0) ((2 ^ 13 * x.2 : Int) : BitVec 16) (demoGen (7 + x.1))).map (·.1)
  let regs ← exec (demo ksk bsk) 4 (2 ^ 13) demoProg cts
  regs.mapM fun ct => (Lwe.decryptLwe demoBig ct).map (decode 13)

/-- The run gives the result of the program on integers. -/
example : demoRun [1, 2, 0] = some [1, 7, 2] ∧ (clear 4 demoProg [1, 2, 0]).map (· % 8) = [1, 7, 2] := by
  decide +kernel

theorem demoNoise_bound : NoiseBound demoNoise 1 := by
  intro u v _
  have h : |(1#16).toInt| ≤ 1 ∧ |(0#16 - 1#16).toInt| ≤ 1 := by decide
  exact h

theorem demo_binary : Lwe.BinaryKey demoSmall ∧ Lwe.BinaryKey demoBig := by
  constructor <;> intro x hx <;> simp only [demoSmall, demoBig, List.mem_cons, List.not_mem_nil, or_false] at hx
  · tauto
  · tauto

/-- The hypotheses of `C62_circuit`, `C62_keys` and `C62_end_to_end` are met: generated keys serve, and the noise bounds
allow the program, whose result can be decoded. -/
example : ∃ ksk bsk : List (BitVec 16), Serves (demo ksk bsk) demoSmall demoBig 0 1 1 ∧
    noise (2 ^ 13) (ksBound (demo ksk bsk) 1) (switchBound (demo ksk bsk) demoSmall) (pbsBound (demo ksk bsk) 0 1)
      demoProg [1, 1, 1] = some [1040, 1040, 1040] ∧ (2 : Int) * 1040 < 2 ^ 13 := by
  have hk : (Lwe.fillKeyswitchKey demoNoise demoBig demoSmall 4 3 3 (List.replicate (16 * 9) 0) (demoGen 0)).isSome := by
    decide +kernel
  have hb : (parFillBsk demoNoise demoSmall demoBig 16 1 2 6 (List.range 2) (fun _ => List.range 6) (fun _ _ => List.range 2)
      (List.replicate (2 * (6 * (2 * 32))) 0) (demoGen 5)).isSome := by
    decide +kernel
  obtain ⟨⟨ksk, g1⟩, hk⟩ := Option.isSome_iff_exists.1 hk
  obtain ⟨⟨bsk, h1⟩, hb⟩ := Option.isSome_iff_exists.1 hb
  refine ⟨ksk, bsk, ?_, ?_, by decide⟩
  swap
  · show noise (2 ^ 13) (ksBound (demo [] []) 1) (switchBound (demo [] []) demoSmall) (pbsBound (demo [] []) 0 1)
      demoProg [1, 1, 1] = some [1040, 1040, 1040]
    decide +kernel
  exact C62_keys (demo ksk bsk) demoSmall demoBig 0 1 1 demoNoise demoNoise demoNoise_bound demoNoise_bound
    (show 4 + 2 < 16 by decide) ⟨Nat.succ_pos 1, Nat.succ_pos 5, show 2 * 6 < 16 by decide⟩
    ⟨Nat.succ_pos 3, Nat.succ_pos 2, show 4 * 3 < 16 by decide⟩
    (exact_accurate 16 _ (by decide) _) le_rfl (by decide) rfl rfl demo_binary.1 demo_binary.2 _ _ _ g1 _ h1
    (List.range 2) (fun _ => List.range 6) (fun _ _ => List.range 2) ⟨List.Perm.refl _, fun _ => List.Perm.refl _,
      fun _ _ => List.Perm.refl _⟩ (List.length_replicate ..) (List.length_replicate ..) hk hb

/-- Realistic parameters: the shipped table of size 4096, an LWE key of dimension 600 with 300 ones, 16 messages. -/
def realServer : Server 64 := nttServer64 Ntt.P64_4096.params 1 10 3 4 5 600 [] []
def realSmall : List (BitVec 64) := List.replicate 300 1 ++ List.replicate 300 0
def realError : Int := Ntt.nttError 64 Ntt.MOD_64.toNat (2 ^ 12) (3 * (1 + 1)) (2 ^ (10 - 1))

/-- With noises of at most `2^20` in the keyswitching key and the inputs and `2^15` in the bootstrapping key, a program
with an addition, a product by 2 and two lookups in a row stays within the bounds. -/
example :
    noise (2 ^ 60) (ksBound realServer (2 ^ 20)) (switchBound realServer realSmall)
      (pbsBound realServer realError (2 ^ 15)) demoProg (List.replicate 3 (2 ^ 20)) =
        some [21378632987443200, 21378632987443200, 21378632987443200] ∧
    (2 : Int) * 21378632987443200 < 2 ^ 60 := by
  decide +kernel

end Verif.Circuit
