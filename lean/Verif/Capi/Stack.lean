import Verif.Scratch.Props
/-
C68: the stacks that the caller of the C functions provides.
-/
namespace Verif.Capi

open Verif Verif.Scratch

/-- keyswitch.rs:7-28 `concrete_cpu_keyswitch_lwe_ciphertext_u64_scratch`; the keyswitch does not use its stack. -/
def keyswitchLweStack : Option Req := some ⟨0, 1⟩

/-- bootstrap/mod.rs:14-43 `concrete_cpu_bootstrap_key_convert_u64_to_fourier_scratch`. `none` is
`ScratchStatus::SizeOverflow`. -/
def convertBskStack (fft : Fft) : Option Req := fillWithForwardScratch fft

/-- bootstrap/mod.rs:99-125 `concrete_cpu_bootstrap_lwe_ciphertext_u64_scratch`. -/
def bootstrapLweStack (glweDim polySize : Nat) (fft : Fft) : Option Req := bootstrapScratch 8 (glweDim + 1) polySize fft

/-- wop_pbs.rs:18-62 `concrete_cpu_extract_bit_lwe_ciphertext_u64_scratch`. -/
def extractBitStack (ctOutDim ctInDim bskGlweDim bskPolySize : Nat) (fft : Fft) : Option Req :=
  extractBitsScratch 8 ctInDim ctOutDim (bskGlweDim + 1) bskPolySize fft

/-- A stack of the announced size at an address with the announced alignment can hold what is announced. -/
theorem canHold_aligned {r : Req} {addr len : Nat} (ha : 0 < r.align) (hd : r.align ∣ addr) (hl : r.size ≤ len) :
    canHold r addr len = true := by
  have : alignUp addr r.align = addr := Nat.le_antisymm (alignUp_le le_rfl hd) (le_alignUp addr ha)
  simp [canHold, this, hl]

/-- The caller who asks a scratch function for a size and an alignment, and provides a stack of at least this size with this
alignment, never makes the corresponding function run out of stack: neither the conversion of the `count` polynomials of a
key, nor a bootstrap, nor an extraction of bits, whatever the other parameters, and whichever elements of the masks are zero.
`fft` is the plan for the polynomial size of the key. -/
theorem C68_stack (fft : Fft) (hp : ∃ k, fft.req.align = 2 ^ k) (glweDim ctOutDim ctInDim level bits count : Nat)
    (mask : List Bool) (masks : List (List Bool)) (r : Req) (addr len : Nat) (ha : 0 < r.align) (hd : r.align ∣ addr)
    (hl : r.size ≤ len) :
    (convertBskStack fft = some r → (fillWithForward fft count).fits addr len) ∧
    (bootstrapLweStack glweDim fft.polySize fft = some r →
      (bootstrap fft 8 (glweDim + 1) fft.polySize level mask).fits addr len) ∧
    (extractBitStack ctOutDim ctInDim glweDim fft.polySize fft = some r →
      (extractBits fft 8 ctInDim ctOutDim (glweDim + 1) fft.polySize level bits masks).fits addr len) := by
  have hc := canHold_aligned ha hd hl
  have h := C66_callerStack fft hp 8 (glweDim + 1) ctInDim ctOutDim level bits mask masks addr len
  refine ⟨fun e => ?_, fun e => h.2.1 r e hc, fun e => h.2.2.1 r e hc⟩
  simp only [convertBskStack, fillWithForwardScratch, forwardScratch, Option.some.injEq] at e
  subst e
  exact (enough_loop (forward_enough hp)).fits hc

/-- The hypotheses can be met: GLWE dimension 1, polynomial size 1024, a plan that needs 8192 bytes, at the address 4096. -/
example : bootstrapLweStack 1 1024 ⟨⟨8192, 128⟩, 1024⟩ = some ⟨98304, 128⟩ ∧ (128 ∣ 4096) ∧
    (bootstrap ⟨⟨8192, 128⟩, 1024⟩ 8 2 1024 3 [true, false, true]).fits 4096 98304 = true := by decide +kernel

end Verif.Capi
