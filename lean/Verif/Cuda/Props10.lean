import Verif.Cuda.AmortizedLemmas
import Verif.Cuda.Props8
import Verif.Pbs.Examples
/-
Property C80: the amortized bootstrap of CUDA evaluates the lookup table at the phase of the input.
-/
set_option linter.unusedSectionVars false
namespace Verif.Cuda.Am
open Verif.Pbs Verif.Poly Verif.Glwe Verif.Decomp

variable {w : Nat}

/-- C80: one turn of the loop of the GPU, on an accumulator `acc` and with the exponent `a`, is the CMUX of the CPU
between `acc` and `X^a acc`, controlled by the GGSW number `it` of the bootstrap key: the same polynomials of the key,
the same digits and the same order of the products. The bases have at most 31 bits (see C79). -/
theorem C80_step_partial (T : Transform w) (N k b l n it : Nat) (hN : 0 < N) (hw : 32 ≤ w) (hv : ValidParams w b l)
    (hb : b ≤ 31) (bsk acc : List (BitVec w)) (hbsk : bsk.length = n * (l * ((k + 1) * ((k + 1) * N)))) (hit : it < n)
    (hacc : CtFits N k acc) (a : Nat) :
    maskStep T N k b l (convert T N bsk) it acc a =
      cmuxFft T N k b l (convert T N (block (l * ((k + 1) * ((k + 1) * N))) bsk it)) acc (listMonomialMul N acc a) :=
  maskStep_eq T N k b l n it hN hw hv hb bsk acc hbsk hit hacc a

theorem foldl_congr_inv {α : Type} (P : α → Prop) (f g : α → Nat → α) (a : α) (ha : P a) : ∀ n : Nat,
    (∀ x i, P x → i < n → f x i = g x i ∧ P (g x i)) →
    (List.range n).foldl f a = (List.range n).foldl g a ∧ P ((List.range n).foldl g a)
  | 0, _ => ⟨rfl, ha⟩
  | n + 1, h => by
    obtain ⟨h1, h2⟩ := foldl_congr_inv P f g a ha n (fun x i hx hi => h x i hx (by omega))
    rw [List.range_succ, List.foldl_append, List.foldl_append, h1]
    exact h _ n h2 (by omega)

theorem loop_fold {G : Type} (cm : G → List (BitVec w) → List (BitVec w) → List (BitVec w)) (N logN : Nat) (d : G) :
    ∀ (mask : List (BitVec w)) (gs : List G) (ct : List (BitVec w)), mask.length = gs.length → (∀ a ∈ mask, a ≠ 0#w) →
    blindRotateLoop cm N logN mask gs ct = (List.range mask.length).foldl (fun acc i =>
      cm (gs.getD i d) acc (listMonomialMul N acc (switchDegree (mask.getD i 0) logN))) ct
  | [], gs, ct, _, _ => by rw [blindRotateLoop]; rfl; simp
  | a :: mask, gs, ct, hl, ha => by
    obtain ⟨g, gs, rfl⟩ : ∃ a m, gs = a :: m := List.exists_cons_of_length_pos (by rw [← hl]; simp)
    rw [blindRotateLoop, if_pos (ha a (List.mem_cons_self ..)), loop_fold cm N logN d mask gs _ (by simpa using hl)
      (fun x hx => ha x (List.mem_cons_of_mem _ hx)), List.length_cons, List.range_succ_eq_map, List.foldl_cons,
      List.foldl_map]
    rfl

theorem cmuxFft_fits (T : Transform w) (N k b l : Nat) (hN : 0 < N)
    (hT : ∀ p e, p.length = N → (T.addBack p e).length = N) (g : List T.E) (c0 c1 : List (BitVec w))
    (h0 : CtFits N k c0) : CtFits N k (cmuxFft T N k b l g c0 c1) := by
  have h0' : c0.length = (k + 1) * N := h0
  rw [cmuxFft, cmux]
  simp only [externalProduct, addOut]
  generalize accumulate T N k g _ = buf
  have hc := chunks_eq N hN (k + 1) c0 h0'
  rw [CtFits, flatten_length_uniform N, zipUpdate_length, hc, List.length_map, List.length_range]
  intro x hx
  obtain ⟨i, hi⟩ := List.mem_iff_getElem?.1 hx
  rw [zipUpdate_getElem?, hc] at hi
  by_cases hik : i < k + 1
  · have hbl := block_len N (k + 1) i c0 h0' hik
    have he : ((List.range (k + 1)).map (block N c0))[i]? = some (block N c0 i) := by simp [hik]
    rw [he] at hi
    cases hb : buf[i]? with
    | none => rw [hb] at hi; cases hi; exact hbl
    | some e => rw [hb] at hi; cases hi; exact hT _ _ hbl
  · have he : ((List.range (k + 1)).map (block N c0))[i]? = none := by simp; omega
    rw [he] at hi
    cases hi

/-- C80: for 32-bit words, the bootstrap of the GPU returns what that of the CPU returns with the same transform, bit by
bit, on the ciphertexts with no mask element equal to zero, which the CPU skips. -/
theorem C80_same_as_cpu (T : Transform 32) (N k b l logN : Nat) (hNN : N = 2 ^ logN) (hlog : logN + 2 < 32)
    (hv : ValidParams 32 b l) (hT : ∀ p e, p.length = N → (T.addBack p e).length = N)
    (bsk lut lweIn lweOut : List (BitVec 32)) (n : Nat) (hbsk : bsk.length = n * (l * ((k + 1) * ((k + 1) * N))))
    (hlut : CtFits N k lut) (hin : lweIn.length = n + 1) (hz : ∀ a ∈ lweIn.dropLast, a ≠ 0) :
    bootstrap T N k b l (convert T N bsk) lut lweIn lweOut =
      Pbs.bootstrap (cmuxFft T N k b l) N logN lweOut lweIn lut (bskGgsws T N k l bsk) := by
  have hN : 0 < N := by rw [hNN]; positivity
  have hb : b ≤ 31 := by
    have := hv.fits
    have h1 := hv.level
    have : b * 1 ≤ b * l := Nat.mul_le_mul_left _ h1
    omega
  have hsw : ∀ x : BitVec 32, rescaleTorusElement x (2 * N) = some (switchDegree x logN) := fun x => by
    rw [hNN, (C78_switch_32 x logN hlog).1, switchDegree_eq x logN hlog]
  have hgs := bskGgsws_eq T N k l n hN hv.level bsk hbsk
  have hlast : lweIn.getLast? = some (lweIn.getD n 0) := by
    rw [List.getLast?_eq_getElem?, hin, List.getD_eq_getElem?_getD]
    simp only [Nat.add_sub_cancel]
    rw [List.getElem?_eq_getElem (by omega)]; rfl
  obtain ⟨_, m1, _⟩ := phase_mono N k hN lut lut hlut (switchDegree (lweIn.getD n 0) logN)
  rw [bootstrap, blindRotate, rotateWith_eq _ N n lut lweIn hin (fun i => switchDegree (lweIn.getD i 0) logN)
    (fun i _ => hsw _), Option.bind_some, Pbs.bootstrap, Pbs.blindRotate, hlast]
  simp only
  rw [loop_fold _ N logN [] lweIn.dropLast _ _ (by rw [hgs]; simp [hin]) hz]
  have hdl : lweIn.dropLast.length = n := by simp [hin]
  rw [hdl]
  congr 1
  refine (foldl_congr_inv (CtFits N k) _ _ _ m1 n fun x i hx hi => ?_).1
  refine ⟨?_, cmuxFft_fits T N k b l hN hT _ _ _ hx⟩
  rw [maskStep_eq T N k b l n i hN le_rfl hv hb bsk x hbsk hi hx]
  congr 1
  · rw [hgs, getD_map_range _ _ _ _ hi]
  · congr 2
    rw [List.getD_eq_getElem?_getD (l := lweIn.dropLast), List.getElem?_dropLast, if_pos (by omega),
      ← List.getD_eq_getElem?_getD]

/-- The GPU loop selects. -/
theorem maskStep_selects (T : Transform w) (N k b l : Nat) (hN : 0 < N) (hw : 32 ≤ w) (hb : b ≤ 31)
    (D B S E : Int) (hT : T.Accurate N (l * (k + 1)) D B) (hD : 2 ^ (b - 1) ≤ D) (h : ValidParams w b l)
    (hS0 : 0 ≤ S) (lweKey key bsk : List (BitVec w))
    (hk : KeyFits N k key) (hS : KeyBound S key) (hs : Lwe.BinaryKey lweKey) (hbsk : BskEnc N k b l lweKey key bsk E) :
    Selects N k (maskStep T N k b l (convert T N bsk)) lweKey key (epBound w N k b l S E B 1) := by
  intro i hi c hc a
  rw [maskStep_eq T N k b l _ i hN hw h hb bsk c hbsk.1 hi hc]
  exact cmux_selects T N k b l hN (by omega) D B S E hT hD h hS0 lweKey key bsk hk hS hs hbsk i hi c hc a

/-- C80, for 32-bit words: the GPU bootstrap succeeds, and the phase of its output under the extracted key is, up to
`n` times the CMUX error, coefficient `d` of the plaintext of the table (extended by `v_(i+N) = -v_i`), for the switched
phase `d` of the input: the guarantee of the CPU (C31). -/
theorem C80_bootstrap_32 (T : Transform 32) (N k b l logN : Nat) (hNN : N = 2 ^ logN) (hlog : logN + 2 < 32)
    (D B S E : Int) (hT : T.Accurate N (l * (k + 1)) D B) (hD : 2 ^ (b - 1) ≤ D) (h : ValidParams 32 b l)
    (hS0 : 0 ≤ S) (lweKey key bsk lut v lweIn lweOut : List (BitVec 32))
    (hk : KeyFits N k key) (hS : KeyBound S key) (hs : Lwe.BinaryKey lweKey) (hbsk : BskEnc N k b l lweKey key bsk E)
    (hlut : CtFits N k lut) (hv : v.length = N) (hphase : glwePhase N k key lut = toRq N v)
    (hin : Lwe.Fits lweKey lweIn) (hout : lweOut.length = k * N + 1) :
    ∃ r, bootstrap T N k b l (convert T N bsk) lut lweIn lweOut = some r ∧ Lwe.Fits key r ∧
      ∀ d, IsSwitchedPhase logN lweKey lweIn d →
        |(Lwe.phase key r - ext N v d).toInt| ≤ lweKey.length * epBound 32 N k b l S E B 1 := by
  have hN : 0 < N := by rw [hNN]; positivity
  have hb : b ≤ 31 := by
    have := hbsk.1
    have := h.fits
    have h1 := h.level
    have : b * 1 ≤ b * l := Nat.mul_le_mul_left _ h1
    omega
  obtain ⟨r, r1, r2, r3⟩ := bootstrap_spec _ N k hN (by omega) _ lweKey key lut v lweIn lweOut hk hs
    (maskStep_selects T N k b l hN le_rfl hb D B S E hT hD h hS0 lweKey key bsk hk hS hs hbsk) hlut hv hphase hin hout
    (fun i => nearestDegree logN (lweIn.getD i 0)) (fun i _ => by rw [hNN]; exact (C78_switch_32 _ logN hlog).1)
  refine ⟨r, r1, r2, fun d hd => r3 d ?_⟩
  rw [hNN]
  exact hd

/-- C80, for the user of a lookup table with 32-bit words: if the plaintext of the table is `y` at every position `d`
that is within `(1 + weight) / 2` steps of the phase of the input, the GPU returns a ciphertext of `y` up to `n` times the
CMUX error. -/
theorem C80_lookup_32 (T : Transform 32) (N k b l logN : Nat) (hNN : N = 2 ^ logN) (hlog : logN + 2 < 32)
    (D B S E : Int) (hT : T.Accurate N (l * (k + 1)) D B) (hD : 2 ^ (b - 1) ≤ D) (h : ValidParams 32 b l)
    (hS0 : 0 ≤ S) (lweKey key bsk lut v lweIn lweOut : List (BitVec 32))
    (hk : KeyFits N k key) (hS : KeyBound S key) (hs : Lwe.BinaryKey lweKey) (hbsk : BskEnc N k b l lweKey key bsk E)
    (hlut : CtFits N k lut) (hv : v.length = N) (hphase : glwePhase N k key lut = toRq N v)
    (hin : Lwe.Fits lweKey lweIn) (hout : lweOut.length = k * N + 1) (y : BitVec 32)
    (hy : ∀ d, d < 2 * N → |((d * 2 ^ (31 - logN) : Nat) - Lwe.phase lweKey lweIn : BitVec 32).toInt| ≤
        (1 + weight lweKey) * 2 ^ (30 - logN) → ext N v d = y) :
    ∃ r, bootstrap T N k b l (convert T N bsk) lut lweIn lweOut = some r ∧ Lwe.Fits key r ∧
      |(Lwe.phase key r - y).toInt| ≤ lweKey.length * epBound 32 N k b l S E B 1 := by
  obtain ⟨r, r1, r2, r3⟩ := C80_bootstrap_32 T N k b l logN hNN hlog D B S E hT hD h hS0 lweKey key bsk lut v lweIn
    lweOut hk hS hs hbsk hlut hv hphase hin hout
  obtain ⟨⟨d, d1, d2⟩, d3⟩ := C31_switched_phase logN hlog lweKey lweIn
  refine ⟨r, r1, r2, ?_⟩
  have h3 := d3 d d2
  rw [show 32 - logN - 1 = 31 - logN by omega, show 32 - logN - 2 = 30 - logN by omega] at h3
  rw [← hy d (by rw [hNN]; exact d1) h3]
  exact r3 d d2

/-- The exponents of the GPU for 64-bit words, in units of the torus. -/
theorem degree_64 (x : BitVec 64) (logN : Nat) (hlog : logN + 1 < 32) : ∃ d : Nat,
    rescaleTorusElement x (2 * 2 ^ logN) = some d ∧
    |((d * 2 ^ (63 - logN) : Nat) : Int) - x.toNat| ≤ 2 ^ (62 - logN) + 2 ^ 10 := by
  obtain ⟨d, h1, h2⟩ := (C78_switch_64_partial x logN hlog).2
  refine ⟨d, h1, ?_⟩
  have hq : (2 : ℚ) * 2 ^ logN * 2 ^ (63 - logN) = 2 ^ 64 := by
    rw [← pow_succ', ← pow_add]; congr 1; omega
  have hq2 : (2 : ℚ) ^ (63 - logN) = 2 * 2 ^ (62 - logN) := by
    rw [← pow_succ']; congr 1; omega
  have hpos : (0 : ℚ) < 2 ^ (63 - logN) := by positivity
  have h3 : |((d * 2 ^ (63 - logN) : Nat) : ℚ) - x.toNat| ≤ 2 ^ (62 - logN) + 2 ^ 10 := by
    have e : ((d * 2 ^ (63 - logN) : Nat) : ℚ) - x.toNat =
        ((d : ℚ) - x.toNat * (2 * 2 ^ logN) / 2 ^ 64) * 2 ^ (63 - logN) := by
      have : (x.toNat : ℚ) * (2 * 2 ^ logN) / 2 ^ 64 * 2 ^ (63 - logN) = x.toNat := by
        rw [div_mul_eq_mul_div, mul_assoc, hq, mul_div_assoc, div_self (by norm_num), mul_one]
      rw [sub_mul, this]; push_cast; ring
    rw [e, abs_mul, abs_of_pos hpos]
    refine (mul_le_mul_of_nonneg_right h2 hpos.le).trans (le_of_eq ?_)
    rw [add_mul, div_mul_eq_mul_div (2 * 2 ^ logN : ℚ), hq, hq2]
    ring
  exact_mod_cast h3

/-- C80 for 64-bit words, proved part: if the plaintext of the table is `y` at every position `d` that is within
`(1 + weight) (1/2 + N / 2^53)` steps of the phase of the input, the GPU returns a ciphertext of `y` up to `n` times the
CMUX error. Missing: the distance `(1 + weight) / 2` of the CPU, which is false (C78), and bases of more than 31 bits
(C79). -/
theorem C80_lookup_64_partial (T : Transform 64) (N k b l logN : Nat) (hNN : N = 2 ^ logN) (hlog : logN + 1 < 32)
    (hb : b ≤ 31) (D B S E : Int) (hT : T.Accurate N (l * (k + 1)) D B) (hD : 2 ^ (b - 1) ≤ D) (h : ValidParams 64 b l)
    (hS0 : 0 ≤ S) (lweKey key bsk lut v lweIn lweOut : List (BitVec 64))
    (hk : KeyFits N k key) (hS : KeyBound S key) (hs : Lwe.BinaryKey lweKey) (hbsk : BskEnc N k b l lweKey key bsk E)
    (hlut : CtFits N k lut) (hv : v.length = N) (hphase : glwePhase N k key lut = toRq N v)
    (hin : Lwe.Fits lweKey lweIn) (hout : lweOut.length = k * N + 1) (y : BitVec 64)
    (hy : ∀ d, d < 2 * N → |((d * 2 ^ (63 - logN) : Nat) - Lwe.phase lweKey lweIn : BitVec 64).toInt| ≤
        (1 + weight lweKey) * (2 ^ (62 - logN) + 2 ^ 10) → ext N v d = y) :
    ∃ r, bootstrap T N k b l (convert T N bsk) lut lweIn lweOut = some r ∧ Lwe.Fits key r ∧
      |(Lwe.phase key r - y).toInt| ≤ lweKey.length * epBound 64 N k b l S E B 1 := by
  have hN : 0 < N := by rw [hNN]; positivity
  choose deg hd1 hd2 using fun x : BitVec 64 => degree_64 x logN hlog
  obtain ⟨r, r1, r2, r3⟩ := bootstrap_spec _ N k hN (by omega) _ lweKey key lut v lweIn lweOut hk hs
    (maskStep_selects T N k b l hN (by omega) hb D B S E hT hD h hS0 lweKey key bsk hk hS hs hbsk) hlut hv hphase hin
    hout (fun i => deg (lweIn.getD i 0)) (fun i _ => by rw [hNN]; exact hd1 _)
  obtain ⟨⟨d, d1, d2⟩, d3⟩ := phase_close logN (by omega) lweKey lweIn (fun i => deg (lweIn.getD i 0))
    (2 ^ (62 - logN) + 2 ^ 10) (fun i _ => by
      rw [show 64 - logN - 1 = 63 - logN by omega]; exact hd2 _)
  refine ⟨r, r1, r2, ?_⟩
  have h3 := d3 d d2
  rw [show 64 - logN - 1 = 63 - logN by omega] at h3
  rw [← hy d (by rw [hNN]; exact d1) h3]
  refine r3 d ?_
  rw [hNN]
  exact d2

/-! ### Examples -/

-- a run: LWE dimension 3, `N = 4`, `k = 1`, base `2^3`, two levels; the phase is 2 steps, the table gives `28 * 2^24`
example : bootstrap (exactTransform 32 4) 4 1 3 2
    (convert (exactTransform 32 4) 4 (([1, 0, 1] : List (BitVec 32)).map (gadgetGgsw 4 1 3 2)).flatten)
    [0, 0, 0, 0, 0x0C000000, 0x14000000, 0x1C000000, 0x28000000]
    [536870912#32, 1610612736#32, 2684354560#32, 0#32] (List.replicate 5 0#32) =
      some [0#32, 0#32, 0#32, 0#32, 0x1C000000#32] := by
  rw [bootstrap, blindRotate, rotateWith_eq _ 4 3 _ _ rfl (fun i => nearestDegree 2 (List.getD _ i 0))
    (fun i _ => (C78_switch_32 _ 2 (by norm_num)).1)]
  decide +kernel

-- the hypotheses can be met
example : ∃ bsk : List (BitVec 64), BskEnc 4 1 3 2 [1, 0, 1] [1, 0, 1, 1] bsk 0 ∧
    (exactTransform 64 4).Accurate 4 4 (2 ^ 2) 0 ∧ ValidParams 64 3 2 ∧ Lwe.BinaryKey [1#64, 0, 1] ∧
    Lwe.Fits [1#64, 0, 1] [0x2000000000000000#64, 0x6000000000000000#64, 0xA000000000000000#64, 0] ∧
    (∀ d, d < 2 * 4 → |((d * 2 ^ (63 - 2) : Nat) -
      Lwe.phase [1#64, 0, 1] [0x2000000000000000#64, 0x6000000000000000#64, 0xA000000000000000#64, 0] : BitVec 64).toInt| ≤
        (1 + weight [1#64, 0, 1]) * (2 ^ (62 - 2) + 2 ^ 10) → ext 4 [7#64, 7, 7, 7] d = 7) := by
  obtain ⟨bsk, h⟩ := exists_bsk 4 1 3 2 (by decide) (by decide) [1#64, 0, 1] [1, 0, 1, 1]
  refine ⟨bsk, h, exact_accurate 4 4 (by decide) (2 ^ 2), ⟨by decide, by decide, by norm_num⟩, ?_, rfl, ?_⟩
  · intro x hx
    simp only [List.mem_cons, List.not_mem_nil, or_false] at hx
    rcases hx with rfl | rfl | rfl <;> simp
  · decide +kernel

end Verif.Cuda.Am
