import Verif.Scratch.Enough
/-
C66: the scratch memory of the Fourier engines is large enough.

Specification: a call whose checks accept its arguments never runs out of scratch memory (`Outcome.short`), wherever the
allocator puts the memory of the engine, whatever the plan of the transform needs (with an alignment that is a power of
two), and whichever elements of the masks are zero. `Outcome.overflow` is left: a size that is not a `usize`.
-/
namespace Verif.Scratch

open Verif Verif.Csprng Verif.Engine

/-- What a plan needs is aligned to a power of two, as every alignment is. -/
def Plans (plan : Nat → Req) : Prop := ∀ N, ∃ k, (plan N).align = 2 ^ k

private theorem checks_bad_ok (c : Bool) (e : EErr) (rs : List (Res EErr Unit)) :
    checks (bad c e :: rs) = .ok () ↔ c = false ∧ checks rs = .ok () := by
  cases c <;> simp [checks, bad]

/-- The conversions of bootstrap keys and GGSW ciphertexts. -/
theorem C66_conversions (plan : Nat → Req) (hp : Plans plan) (bsk : M.Bsk) (output input : M.Ggsw) (addr : Nat)
    (hc : Checks.ggswCiphertextDiscardingConversion output input = .ok ()) :
    Engine.bskConversion plan bsk addr ≠ .short ∧ Engine.ggswConversion plan input addr ≠ .short ∧
      Engine.ggswBackConversion plan output input addr ≠ .short := by
  refine ⟨engineCall_ne_short ?_ _, engineCall_ne_short ?_ _, engineCall_ne_short ?_ _⟩
  · intro r hr
    simp only [fillWithForwardScratch, forwardScratch, Option.some.injEq] at hr
    subst hr
    exact enough_loop (enough_loop (forward_enough (hp _)))
  · intro r hr
    simp only [fillWithForwardScratch, forwardScratch, Option.some.injEq] at hr
    subst hr
    exact enough_loop (forward_enough (hp _))
  · intro r hr
    simp only [Checks.ggswCiphertextDiscardingConversion, checks_bad_ok, bne_eq_false_iff_eq] at hc
    refine enough_loop (backward_enough (fft := Engine.newFft plan input.polySize) (hp input.polySize) hr ?_)
    rw [hc.2.1]; exact le_rfl

/-- The external product. -/
theorem C66_externalProduct (plan : Nat → Req) (hp : Plans plan) (sz : Nat) (glwe output : M.Glwe) (ggsw : M.Ggsw)
    (addr : Nat) (hc : Checks.glweCiphertextGgswCiphertextDiscardingExternalProduct glwe ggsw output = .ok ()) :
    Engine.externalProduct plan sz glwe ggsw addr ≠ .short := by
  simp only [Checks.glweCiphertextGgswCiphertextDiscardingExternalProduct, checks_bad_ok, Bool.or_eq_false_iff,
    bne_eq_false_iff_eq] at hc
  obtain ⟨⟨h1, -⟩, ⟨h2, -⟩, -⟩ := hc
  refine engineCall_ne_short (fun r hr => ?_) addr
  rw [← h1, ← h2]
  exact externalProduct_enough (fft := Engine.newFft plan glwe.polySize) (hp glwe.polySize) hr le_rfl _

/-- The fusing CMUX. -/
theorem C66_cmux (plan : Nat → Req) (hp : Plans plan) (sz : Nat) (glweOutput glweInput : M.Glwe) (ggsw : M.Ggsw)
    (addr : Nat) (hc : Checks.glweCiphertextsGgswCiphertextFusingCmux glweOutput glweInput ggsw = .ok ()) :
    Engine.cmux plan sz glweInput ggsw addr ≠ .short := by
  simp only [Checks.glweCiphertextsGgswCiphertextFusingCmux, checks_bad_ok, Bool.or_eq_false_iff,
    bne_eq_false_iff_eq] at hc
  obtain ⟨⟨h1, h1'⟩, ⟨h2, h2'⟩, -⟩ := hc
  refine engineCall_ne_short (fun r hr => ?_) addr
  rw [← h1', ← h2', ← h1, ← h2]
  exact externalProduct_enough (fft := Engine.newFft plan glweInput.polySize) (hp glweInput.polySize) hr le_rfl _

/-- The bootstrap, whichever elements of the mask are zero. -/
theorem C66_bootstrap (plan : Nat → Req) (hp : Plans plan) (sz : Nat) (output input : M.Lwe) (acc : M.Glwe)
    (bsk : M.Bsk) (mask : List Bool) (addr : Nat)
    (hc : Checks.lweCiphertextDiscardingBootstrap output input acc bsk = .ok ()) :
    Engine.bootstrap plan sz acc bsk mask addr ≠ .short := by
  simp only [Checks.lweCiphertextDiscardingBootstrap, checks_bad_ok, bne_eq_false_iff_eq] at hc
  obtain ⟨-, h1, h2, -⟩ := hc
  refine engineCall_ne_short (fun r hr => ?_) addr
  rw [← h1, ← h2]
  exact bootstrap_enough (fft := Engine.newFft plan acc.polySize) (hp acc.polySize) hr le_rfl _ _

/-- The extraction of bits; its checks are not even needed. -/
theorem C66_extractBits (plan : Nat → Req) (hp : Plans plan) (sz : Nat) (input : M.Lwe) (bsk : M.Bsk) (ksk : M.Ksk)
    (bits : Nat) (masks : List (List Bool)) (addr : Nat) :
    Engine.extractBits plan sz input bsk ksk bits masks addr ≠ .short :=
  engineCall_ne_short
    (fun _ hr => extractBits_enough (fft := Engine.newFft plan bsk.polySize) (hp bsk.polySize) hr le_rfl _ _ _) addr

/-- The circuit bootstrap; its checks are not even needed. -/
theorem C66_circuitBootstrap (plan : Nat → Req) (hp : Plans plan) (sz : Nat) (input : M.Lwe) (bsk : M.Bsk)
    (masks : List (List Bool)) (addr : Nat) : Engine.circuitBootstrap plan sz input bsk masks addr ≠ .short :=
  engineCall_ne_short
    (fun _ hr => circuitBootstrap_enough (fft := Engine.newFft plan bsk.polySize) (hp bsk.polySize) hr le_rfl _ _) addr

/-- The vertical packing, when the keyswitch keys and the bootstrap key have the same GLWE dimension and polynomial size,
which the checks do not ask for. -/
theorem C66_verticalPacking_partial (bld : Build) (plan : Nat → Req) (hp : Plans plan) (sz : Nat)
    (input output : M.LweVec) (bsk : M.Bsk) (luts : M.Vec) (levelCbs : Nat) (pfpksk : M.Pfpksk)
    (masks : List (List (List Bool))) (steps : List Nat) (addr : Nat) (hk : pfpksk.outGlweDim = bsk.glweDim)
    (hN : pfpksk.outPolySize = bsk.polySize) :
    Engine.verticalPacking bld plan sz input output bsk luts levelCbs pfpksk masks steps addr ≠ some .short := by
  intro h
  simp only [Engine.verticalPacking, Option.bind_eq_bind, Option.bind_eq_some_iff, Option.pure_def,
    Option.some.injEq] at h
  obtain ⟨an, han, u, hu, h⟩ := h
  refine engineCall_ne_short (fun r hr => ?_) addr h
  subst hr
  exact cbsVerticalPacking_enough (fft := Engine.newFft plan bsk.polySize) (hp bsk.polySize) han hk hN le_rfl hu

/-- The full claim fails: the checks accept keyswitch keys of GLWE dimension 2 and polynomial size 512 with a bootstrap
key of GLWE dimension 1 and polynomial size 1024. The memory is announced for the GLWE dimension of the bootstrap key and
used for that of the keyswitch keys. -/
theorem C66_verticalPacking_violated (bld : Build) :
    Checks.verticalPacking bld ⟨600, 20⟩ ⟨1024, 1⟩ ⟨600, 1, 1024, 2, 8⟩ ⟨2048⟩ 1 8 ⟨1024, 2, 512, 3⟩ 64 = .ok () ∧
    Checks.fft 1024 = .ok () ∧
    Engine.verticalPacking bld (fun _ => ⟨0, 1⟩) 8 ⟨600, 20⟩ ⟨1024, 1⟩ ⟨600, 1, 1024, 2, 8⟩ ⟨2048⟩ 1 ⟨1024, 2, 512, 3⟩
      (List.replicate 20 [List.replicate 600 true]) [1] 0 = some .short := by
  cases bld <;> decide +kernel

/-- A stack of the caller, as the C functions of concrete-cpu are given one: if it can hold what is announced, everything
fits. -/
theorem C66_callerStack (fft : Fft) (hp : ∃ k, fft.req.align = 2 ^ k) (sz g lweDim kskOutDim level bits : Nat)
    (mask : List Bool) (masks : List (List Bool)) (addr len : Nat) :
    (∀ r, externalProductScratch sz g fft.polySize fft = some r → canHold r addr len →
      (externalProduct fft sz g fft.polySize level).fits addr len) ∧
    (∀ r, bootstrapScratch sz g fft.polySize fft = some r → canHold r addr len →
      (bootstrap fft sz g fft.polySize level mask).fits addr len) ∧
    (∀ r, extractBitsScratch sz lweDim kskOutDim g fft.polySize fft = some r → canHold r addr len →
      (extractBits fft sz lweDim kskOutDim g fft.polySize level bits masks).fits addr len) ∧
    (∀ r, circuitBootstrapScratch sz (lweDim + 1) (kskOutDim + 1) fft.polySize g fft = some r → canHold r addr len →
      (circuitBootstrap fft sz (lweDim + 1) (kskOutDim + 1) g fft.polySize level masks).fits addr len) :=
  ⟨fun _ hr hc => (externalProduct_enough hp hr le_rfl _).fits hc,
    fun _ hr hc => (bootstrap_enough hp hr le_rfl _ _).fits hc,
    fun _ hr hc => (extractBits_enough hp hr le_rfl _ _ _).fits hc,
    fun _ hr hc => (circuitBootstrap_enough hp hr le_rfl _ _).fits hc⟩

/-- The announced memory of a bootstrap, for comparison with the code: 64-bit scalars, GLWE size 2, polynomial size
1024, a plan that needs 8192 bytes. -/
example : bootstrapScratch 8 2 1024 ⟨⟨8192, 128⟩, 1024⟩ = some ⟨98304, 128⟩ := by decide +kernel

/-- The hypotheses can be met, and the call is not an overflow: a bootstrap at an odd address. -/
example : Plans (fun N => ⟨8 * N, 128⟩) ∧
    Checks.lweCiphertextDiscardingBootstrap ⟨64⟩ ⟨3⟩ ⟨1, 64⟩ ⟨3, 1, 64, 2, 8⟩ = .ok () ∧
    Engine.bootstrap (fun N => ⟨8 * N, 128⟩) 8 ⟨1, 64⟩ ⟨3, 1, 64, 2, 8⟩ [true, false, true] 12345 = .fits :=
  ⟨fun _ => ⟨7, rfl⟩, by decide, by decide +kernel⟩

/-- The same for a vertical packing with a tree of two layers. -/
example : Engine.verticalPacking .debug (fun N => ⟨8 * N, 128⟩) 8 ⟨3, 3⟩ ⟨64, 1⟩ ⟨3, 1, 64, 2, 8⟩ ⟨256⟩ 1
    ⟨64, 1, 64, 2⟩ (List.replicate 3 [[true, true, true]]) [3] 12345 = some .fits := by decide +kernel

end Verif.Scratch
