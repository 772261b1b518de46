import Verif.Wop.Model
import Verif.Engine.Checks
import Mathlib.Algebra.Order.Group.Nat
import Mathlib.Tactic.Ring
/-
C67: the checked circuit bootstrap and the keys generated for it.
-/
namespace Verif.Wop

open Verif Verif.Engine
open Verif.Csprng (Build)

variable {w : Nat}

/-- The shape of the keys that `generate_new_lwe_circuit_bootstrap_private_functional_packing_keyswitch_keys` returns for
an input LWE key and an output GLWE key (default_engine/
lwe_circuit_bootstrap_private_functional_packing_keyswitch_keys_generation.rs:100-126 and 213-239, the same in
default_parallel_engine): one key per polynomial of a GLWE ciphertext. -/
def generatedCbsKeys (lweKey : M.Lwe) (glweKey : M.Glwe) : M.Pfpksk :=
  ⟨lweKey.lweDim, glweKey.glweDim, glweKey.polySize, glweKey.glweDim + 1⟩

/-- fft_engine/lwe_ciphertext_discarding_circuit_bootstrap_boolean.rs:123-141 (and 273-291)
`discard_circuit_bootstrap_boolean_lwe_ciphertext`: the checks, then crypto/wop_pbs/mod.rs:223-314. `pbs` is the bootstrap
with the key of shape `bsk`, `ks` the private functional keyswitch. The containers `ggswOut`, `keys` and `lweIn` have the
shapes `output`, `pfpksk` and `input`. -/
def checkedCircuitBootstrap (bld : Build)
    (pbs ks : List (BitVec w) → List (BitVec w) → List (BitVec w) → Option (List (BitVec w))) (output : M.Ggsw)
    (ggswOut : List (BitVec w)) (input : M.Lwe) (lweIn : List (BitVec w)) (delta : Nat) (bsk : M.Bsk)
    (pfpksk : M.Pfpksk) (keys : List (List (BitVec w))) : Res EErr (List (BitVec w)) :=
  match Checks.fft bsk.polySize with
  | .err e => .err e
  | .panic => .panic
  | .ok _ =>
    match Checks.lweCiphertextVectorDiscardingCircuitBootstrapBoolean input output bsk pfpksk with
    | .err e => .err e
    | .panic => .panic
    | .ok _ =>
      match circuitBootstrap bld pbs ks bsk.polySize bsk.glweDim output.polySize output.glweDim output.baseLog output.level
        delta ggswOut keys lweIn with
      | none => .panic
      | some r => .ok r

theorem cbsKeyswitches_length (ks : List (BitVec w) → List (BitVec w) → List (BitVec w) → Option (List (BitVec w)))
    (lwe : List (BitVec w)) : ∀ (keys outs rs rest : List (List (BitVec w))),
    cbsKeyswitches ks lwe keys outs = some (rs, rest) → keys.length + rest.length = outs.length := by
  intro keys
  induction keys with
  | nil => intro outs rs rest h; simp [cbsKeyswitches] at h; simp [h.2]
  | cons key keys ih =>
    intro outs rs rest h
    cases outs with
    | nil => simp [cbsKeyswitches] at h
    | cons o outs =>
      simp only [cbsKeyswitches] at h
      split at h
      · cases h
      split at h
      · cases h
      rename_i r _ p rs' rest' hp
      simp only [Option.some.injEq, Prod.mk.injEq] at h
      obtain ⟨-, rfl⟩ := h
      have := ih outs rs' rest' hp
      simp only [List.length_cons]; omega

/-- The levels use up more ciphertexts than there are. -/
theorem cbsLevels_length (pbs ks : List (BitVec w) → List (BitVec w) → List (BitVec w) → Option (List (BitVec w)))
    (N k b delta : Nat) (keys : List (List (BitVec w))) (lweIn : List (BitVec w)) : ∀ (n level : Nat)
    (buf : List (BitVec w)) (outs res : List (List (BitVec w))),
    cbsLevels pbs ks N k b delta keys lweIn n level buf outs = some res → n * keys.length ≤ outs.length := by
  intro n
  induction n with
  | zero => intros; simp
  | succ n ih =>
    intro level buf outs res h
    simp only [cbsLevels] at h
    split at h
    · cases h
    rename_i _ buf' _
    split at h
    · cases h
    rename_i _ rs rest hks
    split at h
    · cases h
    rename_i _ tail ht
    have h1 := cbsKeyswitches_length ks buf' keys outs rs rest hks
    have h2 := ih _ _ _ _ ht
    calc (n + 1) * keys.length = n * keys.length + keys.length := by ring
      _ ≤ outs.length := by omega

/-- The full claim holds when the output has one level: keys generated for the output are accepted, and the checked
function is the circuit bootstrap of C46. -/
theorem C67_partial (bld : Build)
    (pbs ks : List (BitVec w) → List (BitVec w) → List (BitVec w) → Option (List (BitVec w))) (output : M.Ggsw)
    (ggswOut : List (BitVec w)) (input : M.Lwe) (lweIn : List (BitVec w)) (delta : Nat) (bsk : M.Bsk)
    (keys : List (List (BitVec w))) (hl : output.level = 1) (hN : Checks.fft bsk.polySize = .ok ())
    (hin : input.lweDim = bsk.inDim) (r : List (BitVec w))
    (hr : circuitBootstrap bld pbs ks bsk.polySize bsk.glweDim output.polySize output.glweDim output.baseLog 1 delta
      ggswOut keys lweIn = some r) :
    checkedCircuitBootstrap bld pbs ks output ggswOut input lweIn delta bsk
      (generatedCbsKeys ⟨bsk.outDim⟩ ⟨output.glweDim, output.polySize⟩) keys = .ok r := by
  have hc : Checks.lweCiphertextVectorDiscardingCircuitBootstrapBoolean input output bsk
      (generatedCbsKeys ⟨bsk.outDim⟩ ⟨output.glweDim, output.polySize⟩) = .ok () := by
    simp [Checks.lweCiphertextVectorDiscardingCircuitBootstrapBoolean, generatedCbsKeys, checks, bad, hl, hin]
  rw [checkedCircuitBootstrap, hN, hc]
  simp only [hl, hr]

/-- It fails for two levels or more: keys generated for the output are rejected, as if they were too few. -/
theorem C67_violated (bld : Build)
    (pbs ks : List (BitVec w) → List (BitVec w) → List (BitVec w) → Option (List (BitVec w))) (output : M.Ggsw)
    (ggswOut : List (BitVec w)) (input : M.Lwe) (lweIn : List (BitVec w)) (delta : Nat) (bsk : M.Bsk)
    (keys : List (List (BitVec w))) (hl : 2 ≤ output.level) (hN : Checks.fft bsk.polySize = .ok ()) :
    checkedCircuitBootstrap bld pbs ks output ggswOut input lweIn delta bsk
      (generatedCbsKeys ⟨bsk.outDim⟩ ⟨output.glweDim, output.polySize⟩) keys = .err .mismatchedPFPKSKCount := by
  have hc : Checks.lweCiphertextVectorDiscardingCircuitBootstrapBoolean input output bsk
      (generatedCbsKeys ⟨bsk.outDim⟩ ⟨output.glweDim, output.polySize⟩) = .err .mismatchedPFPKSKCount := by
    have hne : output.glweDim + 1 ≠ output.level * (output.glweDim + 1) := by
      have : 2 * (output.glweDim + 1) ≤ output.level * (output.glweDim + 1) := Nat.mul_le_mul_right _ hl
      omega
    simp [Checks.lweCiphertextVectorDiscardingCircuitBootstrapBoolean, generatedCbsKeys, checks, bad, hne]
  rw [checkedCircuitBootstrap, hN, hc]

/-- There is no other list of keys to give: with two levels or more the checked function never succeeds, in either build.
If the number of keys is what the checks want, the function panics. -/
theorem C67_never (bld : Build)
    (pbs ks : List (BitVec w) → List (BitVec w) → List (BitVec w) → Option (List (BitVec w))) (output : M.Ggsw)
    (ggswOut : List (BitVec w)) (input : M.Lwe) (lweIn : List (BitVec w)) (delta : Nat) (bsk : M.Bsk)
    (pfpksk : M.Pfpksk) (keys : List (List (BitVec w))) (hl : 2 ≤ output.level) (hp : 0 < output.polySize)
    (hout : ggswOut.length = output.level * (output.glweDim + 1) * ((output.glweDim + 1) * output.polySize))
    (hkeys : keys.length = pfpksk.keyCount) :
    (∀ r, checkedCircuitBootstrap bld pbs ks output ggswOut input lweIn delta bsk pfpksk keys ≠ .ok r) ∧
    (Checks.fft bsk.polySize = .ok () →
      Checks.lweCiphertextVectorDiscardingCircuitBootstrapBoolean input output bsk pfpksk = .ok () →
      checkedCircuitBootstrap bld pbs ks output ggswOut input lweIn delta bsk pfpksk keys = .panic) := by
  have main : Checks.lweCiphertextVectorDiscardingCircuitBootstrapBoolean input output bsk pfpksk = .ok () →
      circuitBootstrap bld pbs ks bsk.polySize bsk.glweDim output.polySize output.glweDim output.baseLog output.level
        delta ggswOut keys lweIn = none := by
    intro hc
    have hcount : keys.length = output.level * (output.glweDim + 1) := by
      rw [hkeys]
      by_contra hne
      simp only [Checks.lweCiphertextVectorDiscardingCircuitBootstrapBoolean] at hc
      rcases Bool.eq_false_or_eq_true (pfpksk.inDim != bsk.outDim) with h | h <;>
      rcases Bool.eq_false_or_eq_true (pfpksk.outPolySize != output.polySize) with h' | h' <;>
      rcases Bool.eq_false_or_eq_true (pfpksk.outGlweDim != output.glweDim) with h'' | h'' <;>
      simp [checks, bad, h, h', h'', hne] at hc
    have hlen := chunks_length ((output.glweDim + 1) * output.polySize) (by positivity)
      (output.level * (output.glweDim + 1)) ggswOut hout
    rw [circuitBootstrap]
    split
    · rfl
    · rw [Option.map_eq_none_iff]
      by_contra hsome
      obtain ⟨res, hres⟩ := Option.ne_none_iff_exists'.1 hsome
      have hle := cbsLevels_length pbs ks _ _ _ _ _ _ _ _ _ _ _ hres
      rw [hlen, hcount] at hle
      have h2 : 2 * (output.level * (output.glweDim + 1)) ≤ output.level * (output.level * (output.glweDim + 1)) :=
        Nat.mul_le_mul_right _ hl
      have h3 : 0 < output.level * (output.glweDim + 1) := by positivity
      omega
  constructor
  · intro r
    unfold checkedCircuitBootstrap
    split
    · simp
    · simp
    split
    · simp
    · simp
    rename_i hc
    rw [main hc]
    simp
  · intro hN hc
    rw [checkedCircuitBootstrap, hN, hc, main hc]

/-- The hypotheses of `C67_partial` and `C67_violated` can be met by the same keys and inputs: only the number of levels
of the output differs. -/
example : Checks.fft 512 = .ok () ∧
    checkedCircuitBootstrap .release (fun out _ _ => some out) (fun _ out _ => some out) ⟨1, 2, 1, 4⟩
      (List.replicate 8 (0#64)) ⟨2⟩ [1#64, 2#64, 3#64] 63 ⟨2, 1, 512, 2, 8⟩ (generatedCbsKeys ⟨512⟩ ⟨1, 2⟩) [[], []] =
      .ok (List.replicate 8 0#64) ∧
    checkedCircuitBootstrap .release (fun out _ _ => some out) (fun _ out _ => some out) ⟨1, 2, 2, 4⟩
      (List.replicate 16 (0#64)) ⟨2⟩ [1#64, 2#64, 3#64] 63 ⟨2, 1, 512, 2, 8⟩ (generatedCbsKeys ⟨512⟩ ⟨1, 2⟩) [[], []] =
      .err .mismatchedPFPKSKCount := by decide +kernel

end Verif.Wop
