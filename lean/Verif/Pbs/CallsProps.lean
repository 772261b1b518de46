import Verif.Pbs.Calls
import Verif.Pbs.CallsSpec
import Verif.Pbs.Examples
import Verif.Entity.CallsProps
import Verif.Session.KeysProps
/-
Property C108: the calls of the Fourier engine, in both builds, never panic on well-formed entities: they report a
polynomial size that is not supported, then the first dimension that does not fit, or they compute what they announce;
and a bootstrap key generated at any point of a history, converted, bootstraps.
-/
set_option linter.unusedSectionVars false
namespace Verif.Pbs
open Verif.Engine Verif.Entity Verif.Poly Verif.Glwe Verif.Decomp
open Verif.Csprng (Build)

variable {w : Nat}

/-! ### Lemmas -/

theorem isPow2_iff (N : Nat) : (isPow2 N && decide (32 ≤ N)) = true ↔ Supported N := by
  rw [isPow2]
  simp only [Bool.and_eq_true, bne_iff_ne, ne_eq, beq_iff_eq, decide_eq_true_eq]
  constructor
  · rintro ⟨⟨_, h⟩, h32⟩
    refine ⟨Nat.log2 N, ?_, h.symm⟩
    by_contra hlt
    have : 2 ^ Nat.log2 N ≤ 2 ^ 4 := Nat.pow_le_pow_right (by norm_num) (by omega)
    omega
  · rintro ⟨e, he, rfl⟩
    have h1 : 2 ^ 5 ≤ 2 ^ e := Nat.pow_le_pow_right (by norm_num) he
    refine ⟨⟨by positivity, by rw [Nat.log2_two_pow]⟩, h1⟩

theorem fftThen_bad {β : Type} {N : Nat} (h : ¬Supported N) (r : Res EErr β) :
    fftThen N r = .err .unsupportedPolynomialSize := by
  unfold fftThen; rw [if_neg (fun h' => h ((isPow2_iff N).1 h'))]

theorem fftThen_ok {β : Type} {N : Nat} (h : Supported N) (r : Res EErr β) :
    fftThen N r = match r with
      | .ok x => .ok x
      | .err e => .err (.generic e)
      | .panic => .panic := by
  unfold fftThen; rw [if_pos ((isPow2_iff N).2 h)]; cases r <;> rfl

theorem Supported.log {N : Nat} (h : Supported N) : N = 2 ^ Nat.log2 N := by
  obtain ⟨e, -, rfl⟩ := h
  rw [Nat.log2_two_pow]

theorem GgswWf.small {x : Ggsw (BitVec w)} {k l : Nat} (h : GgswWf x k l) : k + 1 < 2 ^ 64 :=
  lt_of_mul_lt_l (Nat.mul_pos (by omega) h.poly) (lt_of_mul_lt_r h.level h.mem)

theorem GgswWf.dims {x : Ggsw (BitVec w)} {k l : Nat} (h : GgswWf x k l) (m : Build) :
    ggswDims m x = some ⟨k, x.polySize, l, x.baseLog⟩ := by
  have hkk : (k + 1) * ((k + 1) * x.polySize) < 2 ^ 64 := lt_of_mul_lt_r h.level h.mem
  have hk := h.small
  have hk2 : (k + 1) * (k + 1) < 2 ^ 64 := lt_of_mul_lt_l h.poly (by rw [Nat.mul_assoc]; exact hkk)
  have hp : x.polySize < 2 ^ 64 := lt_of_mul_lt_r (by omega) (lt_of_mul_lt_r (by omega : 0 < k + 1) hkk)
  have e : [x.glweSize, x.glweSize, x.polySize].prod = (k + 1) * ((k + 1) * x.polySize) := by
    simp only [h.size, List.prod_cons, List.prod_nil]; ring
  have hpr := prodU_eq m [x.glweSize, x.glweSize, x.polySize] (by simp [h.size, h.poly]) e hkk
  have hck : ckDimDiv m x.tensor.length [[x.glweSize], [x.polySize], [x.glweSize, x.glweSize]] = some () := by
    rw [h.size]
    exact ck3 m (fits1 (l * ((k + 1) * x.polySize)) (by omega) hk (by rw [h.len]; ring))
      (fits1 (l * ((k + 1) * (k + 1))) h.poly hp (by rw [h.len]; ring))
      (fits2 (l * x.polySize) (by omega) (by omega) hk2 (by rw [h.len]; ring))
  have hs : subU m x.glweSize 1 = some k := by rw [h.size, subU_ok m (by omega) hk]; rfl
  have hd : divU x.tensor.length ((k + 1) * ((k + 1) * x.polySize)) = some l :=
    divU_ok (Nat.mul_pos (by omega) (Nat.mul_pos (by omega) h.poly)) h.len
  simp only [ggswDims, Ggsw.levelCount, hck, hpr, hd, hs, Option.bind_eq_bind, Option.bind_some]

variable (T : Transform w)

theorem convertGgsw_eq {m : Build} {x : Ggsw (BitVec w)} {k l : Nat} (h : GgswWf x k l) {f : FourierGgsw T}
    (hf : convertGgsw T m x = .ok f) :
    Supported x.polySize ∧ f = ⟨convert T x.polySize x.tensor, x.polySize, k + 1, x.baseLog, l⟩ := by
  by_cases hs : Supported x.polySize
  · rw [convertGgsw, fftThen_ok hs, h.dims m] at hf
    injection hf with hf
    exact ⟨hs, hf.symm⟩
  · rw [convertGgsw, fftThen_bad hs] at hf
    cases hf

theorem bsk_keySize {m : Build} {x : BootstrapKey (BitVec w)} {n k : Nat} (h : x.Wf n k) : x.keySize m = some n := by
  have := h.dims m
  rw [BootstrapKey.dims] at this
  cases e : x.keySize m with
  | none => rw [e] at this; cases this
  | some n' =>
    rw [e] at this
    simp only [Option.bind_eq_bind, Option.bind_some] at this
    cases e2 : subU m x.glweSize 1 with
    | none => rw [e2] at this; cases this
    | some k' =>
      rw [e2] at this
      simp only [Option.bind_some, Option.some.injEq, M.Bsk.mk.injEq] at this
      rw [this.1]

theorem convertBsk_eq {m : Build} {x : BootstrapKey (BitVec w)} {n k : Nat} (h : x.Wf n k) {f : FourierBsk T}
    (hf : convertBsk T m x = .ok f) :
    Supported x.polySize ∧
      f = ⟨convert T x.polySize x.tensor, n, x.polySize, k + 1, x.baseLog, x.levelCount⟩ := by
  by_cases hs : Supported x.polySize
  · rw [convertBsk, fftThen_ok hs, bsk_keySize h, h.size] at hf
    injection hf with hf
    exact ⟨hs, hf.symm⟩
  · rw [convertBsk, fftThen_bad hs] at hf
    cases hf

/-! ### C108 -/

/-- C108, conversion of a GGSW ciphertext: exactly the unsupported polynomial sizes are reported; the result has the
dimensions of the input and holds the transform of each of its polynomials. -/
theorem C108_convert_ggsw (m : Build) (x : Ggsw (BitVec w)) {k l : Nat} (h : GgswWf x k l) :
    (¬Supported x.polySize → convertGgsw T m x = .err .unsupportedPolynomialSize) ∧
    (Supported x.polySize → ∃ f, convertGgsw T m x = .ok f ∧
      f.dims T m = some ⟨k, x.polySize, l, x.baseLog⟩ ∧ f.polys = (chunks x.polySize x.tensor).map T.fwdGgsw) := by
  refine ⟨fun hs => fftThen_bad hs _, fun hs => ?_⟩
  refine ⟨_, by rw [convertGgsw, fftThen_ok hs, h.dims m], ?_, rfl⟩
  rw [FourierGgsw.dims, subU_ok m (by omega) h.small]; rfl

/-- C108, conversion of a GGSW ciphertext into an existing one: a polynomial size that is not supported is reported,
then the first of GLWE dimension, polynomial size, level count and base log that differs; otherwise the result is that
of the allocating conversion, whatever the output held. -/
theorem C108_discard_convert_ggsw (m : Build) (out : FourierGgsw T) (x : Ggsw (BitVec w)) {k k' l : Nat}
    (h : GgswWf x k l) (ho : out.glweSize = k' + 1) (hk' : k' + 1 < 2 ^ 64) :
    (¬Supported x.polySize → discardConvertGgsw T m out x = .err .unsupportedPolynomialSize) ∧
    (Supported x.polySize →
      (k ≠ k' → discardConvertGgsw T m out x = .err (.generic .glweDimensionMismatch)) ∧
      (k = k' → x.polySize ≠ out.polySize →
        discardConvertGgsw T m out x = .err (.generic .polynomialSizeMismatch)) ∧
      (k = k' → x.polySize = out.polySize → l ≠ out.level →
        discardConvertGgsw T m out x = .err (.generic .decompositionLevelCountMismatch)) ∧
      (k = k' → x.polySize = out.polySize → l = out.level → x.baseLog ≠ out.baseLog →
        discardConvertGgsw T m out x = .err (.generic .decompositionBaseLogMismatch)) ∧
      (k = k' → x.polySize = out.polySize → l = out.level → x.baseLog = out.baseLog →
        discardConvertGgsw T m out x = convertGgsw T m x)) := by
  refine ⟨fun hs => fftThen_bad hs _, fun hs => ?_⟩
  have hd : out.dims T m = some ⟨k', out.polySize, out.level, out.baseLog⟩ := by
    rw [FourierGgsw.dims, ho, subU_ok m (by omega) hk']; rfl
  rw [discardConvertGgsw, convertGgsw, fftThen_ok hs, fftThen_ok hs, hd, h.dims m]
  simp only [Checks.ggswCiphertextDiscardingConversion, checks_bad, checks_nil, bne_iff_ne, ne_eq]
  refine ⟨fun h1 => ?_, fun h1 h2 => ?_, fun h1 h2 h3 => ?_, fun h1 h2 h3 h4 => ?_, fun h1 h2 h3 h4 => ?_⟩
  · rw [if_pos h1]; rfl
  · rw [if_neg (not_not.2 h1), if_pos h2]; rfl
  · rw [if_neg (not_not.2 h1), if_neg (not_not.2 h2), if_pos h3]; rfl
  · rw [if_neg (not_not.2 h1), if_neg (not_not.2 h2), if_neg (not_not.2 h3), if_pos h4]; rfl
  · rw [if_neg (not_not.2 h1), if_neg (not_not.2 h2), if_neg (not_not.2 h3), if_neg (not_not.2 h4)]
    obtain ⟨a, b, c, d, e⟩ := out
    simp only at ho h2 h3 h4
    subst h1 h2 h3 h4 ho
    rfl

/-- C108, conversion of a bootstrap key: exactly the unsupported polynomial sizes are reported; the result has the
dimensions of the input and holds the transform of each of its polynomials. -/
theorem C108_convert_bootstrap_key (m : Build) (x : BootstrapKey (BitVec w)) {n k : Nat} (h : x.Wf n k) :
    (¬Supported x.polySize → convertBsk T m x = .err .unsupportedPolynomialSize) ∧
    (Supported x.polySize → ∃ f, convertBsk T m x = .ok f ∧
      f.dims T m = x.dims m ∧ f.dims T m = some ⟨n, k, x.polySize, x.levelCount, x.baseLog⟩ ∧
      f.polys = (chunks x.polySize x.tensor).map T.fwdGgsw) := by
  refine ⟨fun hs => fftThen_bad hs _, fun hs => ?_⟩
  have hk : k + 1 < 2 ^ 64 :=
    lt_of_mul_lt_l (Nat.mul_pos (by omega) h.poly) (lt_of_mul_lt_r h.level h.mem)
  have e : (subU m x.glweSize 1).map (fun k => (⟨n, k, x.polySize, x.levelCount, x.baseLog⟩ : M.Bsk)) =
      some ⟨n, k, x.polySize, x.levelCount, x.baseLog⟩ := by
    rw [h.size, subU_ok m (by omega) hk]; rfl
  refine ⟨_, by rw [convertBsk, fftThen_ok hs, bsk_keySize h], ?_, ?_, rfl⟩
  · rw [h.dims m]; exact e
  · exact e

/-- C108, external product: with a converted GGSW ciphertext, a polynomial size of the input that is not supported is
reported, then a polynomial size, then a GLWE dimension that differs from the others (also reported as a polynomial size);
otherwise the new output has the phase of the input times the constant of the GGSW ciphertext, within `epBound`,
whatever the output held. -/
theorem C108_external_product (m : Build) (inp out : GlweCiphertext (BitVec w)) (ggsw : Ggsw (BitVec w))
    (f : FourierGgsw T) {k k' kg l : Nat} (hi : inp.Wf k) (ho : out.Wf k') (hg : GgswWf ggsw kg l)
    (hf : convertGgsw T m ggsw = .ok f) :
    (¬Supported inp.polySize → discardExternalProductCall T m inp f out = .err .unsupportedPolynomialSize) ∧
    (Supported inp.polySize →
      (inp.polySize ≠ ggsw.polySize ∨ inp.polySize ≠ out.polySize →
        discardExternalProductCall T m inp f out = .err (.generic .polynomialSizeMismatch)) ∧
      (inp.polySize = ggsw.polySize → inp.polySize = out.polySize → k ≠ kg ∨ k ≠ k' →
        discardExternalProductCall T m inp f out = .err (.generic .polynomialSizeMismatch)) ∧
      (inp.polySize = ggsw.polySize → inp.polySize = out.polySize → k = kg → k = k' →
        ∃ r, discardExternalProductCall T m inp f out = .ok r ∧ r.polySize = inp.polySize ∧
          ∀ (D B S E : Int) (key : List (BitVec w)) (c : Int) (err : Nat → Nat → Rq (BitVec w) inp.polySize),
            T.Accurate inp.polySize (l * (k + 1)) D B → 2 ^ (ggsw.baseLog - 1) ≤ D → ValidParams w ggsw.baseLog l →
            KeyFits inp.polySize k key → KeyBound S key →
            GgswEnc inp.polySize k ggsw.baseLog l key ggsw.tensor (AdjoinRoot.of _ (c : BitVec w)) err →
            (∀ j r, j < l → r ≤ k → Small inp.polySize E (err j r)) →
            CtFits inp.polySize k r.tensor ∧
            ∃ e : Rq (BitVec w) inp.polySize,
              Small inp.polySize (epBound w inp.polySize k ggsw.baseLog l S E B |c|) e ∧
              glwePhase inp.polySize k key r.tensor =
                AdjoinRoot.of _ (c : BitVec w) * glwePhase inp.polySize k key inp.tensor + e)) := by
  refine ⟨fun hs => fftThen_bad hs _, fun hs => ?_⟩
  obtain ⟨-, rfl⟩ := convertGgsw_eq T hg hf
  have hd : FourierGgsw.dims T m ⟨convert T ggsw.polySize ggsw.tensor, ggsw.polySize, kg + 1, ggsw.baseLog, l⟩ =
      some ⟨kg, ggsw.polySize, l, ggsw.baseLog⟩ := by
    rw [FourierGgsw.dims, subU_ok m (by omega) hg.small]; rfl
  rw [discardExternalProductCall, fftThen_ok hs, hi.dim m, ho.dim m, hd]
  simp only [Checks.glweCiphertextGgswCiphertextDiscardingExternalProduct, checks_bad, checks_nil, Bool.or_eq_true,
    bne_iff_ne, ne_eq]
  refine ⟨fun h1 => ?_, fun h1 h2 h3 => ?_, fun h1 h2 h3 h4 => ?_⟩
  · rw [if_pos h1]; rfl
  · rw [if_neg (by tauto), if_pos h3]; rfl
  · rw [if_neg (by tauto), if_neg (by tauto)]
    refine ⟨_, rfl, h2.symm, fun D B S E key c err hT hD hv hk hS he hE => ?_⟩
    have hout : CtFits inp.polySize k out.tensor := by
      rw [CtFits, ho.len, ← h2, ← h4]
    simp only [← h1]
    refine ⟨?_, C27_discarding_phase T _ _ _ _ hi.poly D B S E hT hD hv key out.tensor ggsw.tensor inp.tensor c err hk hS
      hout hi.len he hE⟩
    rw [discardExternalProduct]
    exact (C27_error_bound T _ _ _ _ hi.poly D B S E hT hD hv key (out.tensor.map fun _ => 0#w) ggsw.tensor inp.tensor c
      err hk hS (by simpa [CtFits] using hout) hi.len he hE).1

/-- C108, CMUX: with a converted GGSW ciphertext of a bit, a polynomial size of the output that is not supported is
reported, then a polynomial size, then a GLWE dimension that differs from the others; otherwise the new output has the
phase that `inp` had if the bit is one, else its own, within `epBound`; `inp` becomes the difference. -/
theorem C108_cmux (m : Build) (out inp : GlweCiphertext (BitVec w)) (ggsw : Ggsw (BitVec w))
    (f : FourierGgsw T) {k k' kg l : Nat} (ho : out.Wf k) (hi : inp.Wf k') (hg : GgswWf ggsw kg l)
    (hf : convertGgsw T m ggsw = .ok f) :
    (¬Supported out.polySize → fuseCmux T m out inp f = .err .unsupportedPolynomialSize) ∧
    (Supported out.polySize →
      (inp.polySize ≠ out.polySize ∨ out.polySize ≠ ggsw.polySize →
        fuseCmux T m out inp f = .err (.generic .polynomialSizeMismatch)) ∧
      (inp.polySize = out.polySize → out.polySize = ggsw.polySize → k' ≠ k ∨ k ≠ kg →
        fuseCmux T m out inp f = .err (.generic .glweDimensionMismatch)) ∧
      (inp.polySize = out.polySize → out.polySize = ggsw.polySize → k' = k → k = kg →
        ∃ r r', fuseCmux T m out inp f = .ok (r, r') ∧ r.polySize = out.polySize ∧ r'.polySize = out.polySize ∧
          r'.tensor = List.zipWith (fun x y => x - y) inp.tensor out.tensor ∧
          ∀ (D B S E : Int) (key : List (BitVec w)) (s : Bool) (err : Nat → Nat → Rq (BitVec w) out.polySize),
            T.Accurate out.polySize (l * (k + 1)) D B → 2 ^ (ggsw.baseLog - 1) ≤ D → ValidParams w ggsw.baseLog l →
            KeyFits out.polySize k key → KeyBound S key →
            GgswEnc out.polySize k ggsw.baseLog l key ggsw.tensor (if s then 1 else 0) err →
            (∀ j r, j < l → r ≤ k → Small out.polySize E (err j r)) →
            CtFits out.polySize k r.tensor ∧
            ∃ e : Rq (BitVec w) out.polySize,
              Small out.polySize (epBound w out.polySize k ggsw.baseLog l S E B (if s then 1 else 0)) e ∧
              glwePhase out.polySize k key r.tensor =
                (if s then glwePhase out.polySize k key inp.tensor else glwePhase out.polySize k key out.tensor) + e)) := by
  refine ⟨fun hs => fftThen_bad hs _, fun hs => ?_⟩
  obtain ⟨-, rfl⟩ := convertGgsw_eq T hg hf
  have hd : FourierGgsw.dims T m ⟨convert T ggsw.polySize ggsw.tensor, ggsw.polySize, kg + 1, ggsw.baseLog, l⟩ =
      some ⟨kg, ggsw.polySize, l, ggsw.baseLog⟩ := by
    rw [FourierGgsw.dims, subU_ok m (by omega) hg.small]; rfl
  rw [fuseCmux, fftThen_ok hs, hi.dim m, ho.dim m, hd]
  simp only [Checks.glweCiphertextsGgswCiphertextFusingCmux, checks_bad, checks_nil, Bool.or_eq_true,
    bne_iff_ne, ne_eq]
  refine ⟨fun h1 => ?_, fun h1 h2 h3 => ?_, fun h1 h2 h3 h4 => ?_⟩
  · rw [if_pos h1]; rfl
  · rw [if_neg (by tauto), if_pos h3]; rfl
  · rw [if_neg (by tauto), if_neg (by tauto)]
    have hin : CtFits out.polySize k inp.tensor := by rw [CtFits, hi.len, h1, h3]
    refine ⟨_, _, rfl, rfl, h1, ?_, fun D B S E key s err hT hD hv hk hS he hE => ?_⟩
    · exact zipUpdate_eq_zipWith _ _ _ (by rw [hin, ho.len])
    · simp only [← h2]
      obtain ⟨a1, a2, -⟩ := C28_cmux T _ _ _ _ ho.poly D B S E hT hD hv key ggsw.tensor out.tensor inp.tensor s err hk hS
        ho.len hin he hE
      exact ⟨a1, a2⟩

/-- C108, bootstrap: with a converted bootstrap key, a polynomial size of the accumulator that is not supported is
reported, then the first of input dimension, polynomial size and GLWE dimension of the accumulator and output dimension
that does not fit the key; otherwise, with a key of `BskEnc`, the new output has the phase of the accumulator at the
switched phase of the input, within `n` times `epBound`, whatever the output held. -/
theorem C108_bootstrap (m : Build) (out inp : List (BitVec w)) (acc : GlweCiphertext (BitVec w))
    (bsk : BootstrapKey (BitVec w)) (f : FourierBsk T) {o i n k ka : Nat} (ho : out.length = o + 1) (ho2 : o + 1 < 2 ^ 64)
    (hi : inp.length = i + 1) (hi2 : i + 1 < 2 ^ 64) (ha : acc.Wf ka) (hb : bsk.Wf n k)
    (hf : convertBsk T m bsk = .ok f) :
    (¬Supported acc.polySize → discardBootstrap T m out inp acc f = .err .unsupportedPolynomialSize) ∧
    (Supported acc.polySize →
      (i ≠ n → discardBootstrap T m out inp acc f = .err (.generic .inputLweDimensionMismatch)) ∧
      (i = n → acc.polySize ≠ bsk.polySize →
        discardBootstrap T m out inp acc f = .err (.generic .accumulatorPolynomialSizeMismatch)) ∧
      (i = n → acc.polySize = bsk.polySize → ka ≠ k →
        discardBootstrap T m out inp acc f = .err (.generic .accumulatorGlweDimensionMismatch)) ∧
      (i = n → acc.polySize = bsk.polySize → ka = k → o ≠ k * bsk.polySize →
        discardBootstrap T m out inp acc f = .err (.generic .outputLweDimensionMismatch)) ∧
      (i = n → acc.polySize = bsk.polySize → ka = k → o = k * bsk.polySize →
        ∀ (logN : Nat) (D B S E : Int) (lweKey key v : List (BitVec w)), bsk.polySize = 2 ^ logN → logN + 2 < w →
          T.Accurate bsk.polySize (bsk.levelCount * (k + 1)) D B → 2 ^ (bsk.baseLog - 1) ≤ D →
          ValidParams w bsk.baseLog bsk.levelCount → 0 ≤ B → 0 ≤ S → 0 ≤ E →
          KeyFits bsk.polySize k key → KeyBound S key → Lwe.BinaryKey lweKey →
          BskEnc bsk.polySize k bsk.baseLog bsk.levelCount lweKey key bsk.tensor E → lweKey.length = n →
          v.length = bsk.polySize → glwePhase bsk.polySize k key acc.tensor = toRq bsk.polySize v →
          ∃ r, discardBootstrap T m out inp acc f = .ok r ∧ Lwe.Fits key r ∧
            ∀ d, IsSwitchedPhase logN lweKey inp d →
              |(Lwe.phase key r - ext bsk.polySize v d).toInt| ≤
                n * epBound w bsk.polySize k bsk.baseLog bsk.levelCount S E B 1)) := by
  refine ⟨fun hs => fftThen_bad hs _, fun hs => ?_⟩
  obtain ⟨-, rfl⟩ := convertBsk_eq T hb hf
  have hk1 : k + 1 < 2 ^ 64 :=
    lt_of_mul_lt_l (Nat.mul_pos (by omega) hb.poly) (lt_of_mul_lt_r hb.level hb.mem)
  have hd : FourierBsk.dims T m
      ⟨convert T bsk.polySize bsk.tensor, n, bsk.polySize, k + 1, bsk.baseLog, bsk.levelCount⟩ =
      some ⟨n, k, bsk.polySize, bsk.levelCount, bsk.baseLog⟩ := by
    rw [FourierBsk.dims, subU_ok m (by omega) hk1]; rfl
  have h1 : subU m out.length 1 = some o := by rw [ho, subU_ok m (by omega) ho2]; rfl
  have h2 : subU m inp.length 1 = some i := by rw [hi, subU_ok m (by omega) hi2]; rfl
  rw [discardBootstrap, fftThen_ok hs, h1, h2, ha.dim m, hd]
  simp only [Checks.lweCiphertextDiscardingBootstrap, checks_bad, checks_nil, bne_iff_ne, ne_eq, M.Bsk.outDim]
  refine ⟨fun a1 => ?_, fun a1 a2 => ?_, fun a1 a2 a3 => ?_, fun a1 a2 a3 a4 => ?_, fun a1 a2 a3 a4 => ?_⟩
  · rw [if_pos a1]; rfl
  · rw [if_neg (not_not.2 a1), if_pos a2]; rfl
  · rw [if_neg (not_not.2 a1), if_neg (not_not.2 a2), if_pos a3]; rfl
  · rw [if_neg (not_not.2 a1), if_neg (not_not.2 a2), if_neg (not_not.2 a3), if_pos a4]; rfl
  · rw [if_neg (not_not.2 a1), if_neg (not_not.2 a2), if_neg (not_not.2 a3), if_neg (not_not.2 a4)]
    intro logN D B S E lweKey key v hN hlog hT hD hv hB hS0 hE hk hS hs' hbsk hn hvl hph
    obtain ⟨r, r1, -, r2, r3⟩ := C31_bootstrap T _ _ _ _ logN hN hlog D B S E hT hD hv hB hS0 hE lweKey key bsk.tensor
      acc.tensor v inp out hk hS hs' hbsk (by rw [CtFits, ha.len, a2, a3]) hvl hph (by rw [Lwe.Fits, hi, hn, a1])
      (by rw [ho, a4])
    have hl2 : Nat.log2 bsk.polySize = logN := by rw [hN, Nat.log2_two_pow]
    rw [hl2]
    refine ⟨r, ?_, r2, fun d hd => by rw [← hn]; exact r3 d hd⟩
    rw [bskGgsws] at r1
    rw [r1]; rfl

/-- C108, in a history: a bootstrap key that an engine generates at any point of a history, by one thread or by
several, converts; and bootstrapping with it any ciphertext, with any accumulator whose decryption `v` is `y` at all
positions near the decryption of the ciphertext, gives a ciphertext that decrypts, under the GLWE key read as an LWE
key, to `y` within `n` times `epBound`. -/
theorem C108_history (Tb : BitVec 128 → Nat → BitVec 8) (bld : Build) (cs : List Session.Call) (e e' : Session.Engine)
    (os : List Session.Out) (h : Session.run Tb bld cs e = some (os, e')) (i : Nat) (c : Session.EncCall w)
    (fn : Random.GaussianFn w) (s : List (BitVec w)) (key : GlweKey (BitVec w)) (b level : Nat)
    (ct : Session.Cts w) (hc : cs[i]? = some (.enc c)) (hb : c.bootstrapKey = some (fn, s, key, b, level))
    (hsc : c.Scheduled) (ho : os[i]? = some (.cts ct)) (E : Int) (hE : 0 ≤ E) (hf : NoiseBound fn E)
    (hk : Session.KeyOk key) (hs : Lwe.BinaryKey s) (hbin : Lwe.BinaryKey key.data) (hv : ValidParams w b level)
    (hsup : Supported key.polySize) (hlog : Nat.log2 key.polySize + 2 < w) (D B : Int) (hB : 0 ≤ B)
    (hT : T.Accurate key.polySize (level * (key.dim + 1)) D B) (hD : 2 ^ (b - 1) ≤ D)
    (hmem : level * ((key.dim + 1) * ((key.dim + 1) * key.polySize)) < 2 ^ 64) (hn : s.length + 1 < 2 ^ 64)
    (hkl : key.data.length + 1 < 2 ^ 64) :
    ∃ bsk, convertBsk T bld ⟨ct.data, key.polySize, key.dim + 1, level, b⟩ = .ok bsk ∧
      ∀ (out inp : List (BitVec w)) (acc : GlweCiphertext (BitVec w)) (x y : BitVec w) (v : List (BitVec w)),
        out.length = key.data.length + 1 → Lwe.Fits s inp → acc.Wf key.dim → acc.polySize = key.polySize →
        Session.decryptLwe bld s inp = .ok x → Session.decryptGlwe key acc = .ok v →
        (∀ d, d < 2 * key.polySize →
          |((d * 2 ^ (w - Nat.log2 key.polySize - 1) : Nat) - x : BitVec w).toInt| ≤
            (1 + weight s) * 2 ^ (w - Nat.log2 key.polySize - 2) → ext key.polySize v d = y) →
        ∃ r z, discardBootstrap T bld out inp acc bsk = .ok r ∧ Session.decryptLwe bld key.data r = .ok z ∧
          |(z - y).toInt| ≤ s.length * epBound w key.polySize key.dim b level 1 E B 1 := by
  have hbsk := Session.C106_bootstrap_key Tb bld cs e e' os h i c fn s key b level ct hc hb hsc ho E hf hk
  have hwf : (⟨ct.data, key.polySize, key.dim + 1, level, b⟩ : BootstrapKey (BitVec w)).Wf s.length key.dim :=
    ⟨hv.level, hk.1, rfl, hbsk.1, hmem⟩
  obtain ⟨bsk, b1, -, -, -⟩ := (C108_convert_bootstrap_key T bld _ hwf).2 hsup
  refine ⟨bsk, b1, fun out inp acc x y v hout hin hacc hp hx hdec hy => ?_⟩
  have hkf : KeyFits key.polySize key.dim key.data := Session.key_fits hk.2
  rw [Session.decryptLwe_phase bld (Or.inr hs) hin] at hx
  injection hx with hx
  subst hx
  rw [Session.decryptGlwe_ok hacc hp] at hdec
  injection hdec with hdec
  have hct : CtFits key.polySize key.dim acc.tensor := by rw [CtFits, hacc.len, hp]
  obtain ⟨q1, q2⟩ := decryptGlwe_spec key.polySize key.dim hk.1 key.data (List.replicate key.polySize 0) acc.tensor hkf
    hct (by simp)
  rw [hdec] at q1 q2
  have hS : KeyBound 1 key.data := by
    intro z hz
    rcases hbin z hz with rfl | rfl
    · simp
    · rw [show (1 : BitVec w) = 1#w from rfl, BitVec.toInt_one (by omega)]; simp
  obtain ⟨r, r1, r2, r3⟩ := ((C108_bootstrap T bld out inp acc _ bsk (o := key.data.length) (i := s.length) hout hkl hin hn
    hacc hwf b1).2 (hp ▸ hsup)).2.2.2.2 rfl hp rfl hkf (Nat.log2 key.polySize) D B 1 E s key.data v hsup.log hlog hT hD
    hv hB (by norm_num) hE hkf hS hs hbsk rfl q1 q2.symm
  refine ⟨r, _, r1, Session.decryptLwe_phase bld (Or.inr hbin) r2, ?_⟩
  obtain ⟨⟨d, d1, d2⟩, d3⟩ := C31_switched_phase (Nat.log2 key.polySize) hlog s inp
  rw [← hy d (by rw [hsup.log]; simpa using d1) (d3 d d2)]
  exact r3 d d2

/-! ### Examples -/

example : Supported 32 ∧ ¬Supported 16 ∧ ¬Supported 48 := by
  refine ⟨⟨5, le_rfl, rfl⟩, fun h => ?_, fun h => ?_⟩
  · exact absurd ((isPow2_iff 16).2 h) (by decide)
  · exact absurd ((isPow2_iff 48).2 h) (by decide)

/-- The hypotheses of the external product and of the CMUX are met by a noiseless GGSW ciphertext of one. -/
example : ∃ f, convertGgsw (exactTransform 32 32) .debug ⟨gadgetGgsw 32 1 4 2 1, 32, 2, 4⟩ = .ok f ∧
    GgswWf (⟨gadgetGgsw 32 1 4 2 1, 32, 2, 4⟩ : Ggsw (BitVec 32)) 1 2 ∧
    GgswEnc 32 1 4 2 (List.replicate 32 1#32) (gadgetGgsw 32 1 4 2 1) (AdjoinRoot.of _ ((1 : Int) : BitVec 32))
      (fun _ _ => 0) ∧
    (exactTransform 32 32).Accurate 32 (2 * (1 + 1)) 8 0 ∧
    (⟨List.replicate 64 7#32, 32⟩ : GlweCiphertext (BitVec 32)).Wf 1 := by
  have hl := (gadget_enc 32 1 4 2 (by norm_num) (List.replicate 32 1#32) (1 : BitVec 32)).1
  have hwf : GgswWf (⟨gadgetGgsw 32 1 4 2 1, 32, 2, 4⟩ : Ggsw (BitVec 32)) 1 2 :=
    ⟨by decide, by decide, rfl, hl, by decide⟩
  obtain ⟨f, h1, -, -⟩ := (C108_convert_ggsw (exactTransform 32 32) .debug _ hwf).2 ⟨5, le_rfl, rfl⟩
  refine ⟨f, h1, hwf, ?_, exact_accurate 32 _ (by norm_num) _, ⟨by decide, by simp, by decide⟩⟩
  convert gadget_enc 32 1 4 2 (by norm_num) (List.replicate 32 1#32) (1 : BitVec 32) using 2
  simp

/-- A key of 32 bits. -/
def exKey : GlweKey (BitVec 32) := ⟨32, [1, 0, 1, 1, 0, 0, 1, 0, 1, 0, 1, 1, 0, 0, 1, 0, 1, 0, 1, 1, 0, 0, 1, 0, 1, 0, 1, 1, 0, 0,
  1, 0]⟩

/-- The history that generates the bootstrap key of the key bit 1 under `exKey`. -/
def exCalls : List Session.Call := [.enc (w := 32) (.bsk Session.exNoise [1] exKey 8 2)]

/-- The conversion of the key, the bootstrap of a ciphertext, its decryption rounded to eight bits. -/
def exBoot (inp : List (BitVec 32)) (N : Nat) (os : List Session.Out) : Option (Res FErr (BitVec 32)) :=
  match os with
  | [.cts (w := 32) c] =>
    match convertBsk (exactTransform 32 32) .debug ⟨c.data, N, 2, 2, 8⟩ with
    | .ok f =>
      match discardBootstrap (exactTransform 32 32) .debug (List.replicate 33 5) inp
          ⟨List.replicate 32 0#32 ++ List.replicate 32 (3#32 <<< 28), 32⟩ f with
      | .ok r =>
        match Session.decryptLwe .debug exKey.data r with
        | .ok z => some (.ok ((z + 8388608#32) >>> 24))
        | _ => none
      | .err e => some (.err e)
      | .panic => some .panic
    | .err e => some (.err e)
    | .panic => some .panic
  | _ => none

set_option maxRecDepth 100000 in
example : ((Session.newDefault Session.exTable 9).bind (Session.run Session.exTable .debug exCalls)).map
    (fun r => (exBoot [1#32 <<< 28, 1#32 <<< 30] 32 r.1, exBoot [1#32 <<< 28] 32 r.1, exBoot [1, 2] 16 r.1)) =
    some (some (.ok 48), some (.err (.generic .inputLweDimensionMismatch)), some (.err .unsupportedPolynomialSize)) := by
  decide +kernel

end Verif.Pbs
