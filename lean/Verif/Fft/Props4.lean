import Verif.Fft.Props3
import Verif.Fft.Props2
/-
The hypotheses of C84 are met: two machines whose plans keep the coefficients in opposite orders.
-/
namespace Verif.Fft
open Verif.Float Verif.Poly Verif.Glwe Verif.Pbs Verif.Decomp Verif.BV
open Verif.Serde (Order Wire reorder FourierEntity Schema fourierSerialize fourierDeserialize)

variable {w : ℕ}

/-- The standard order. -/
def forwardOrder : Order := ⟨fun _ k => k, fun _ i => i, fun h => h, fun h => h, fun _ => rfl, fun _ => rfl⟩

/-- The opposite order. -/
def backwardOrder : Order :=
  ⟨fun n k => n - 1 - k, fun n i => n - 1 - i, by omega, by omega, by omega, by omega⟩

/-- A sequence of pairs of words. -/
def pairs : Schema := .seq (.pair (.word 8) (.word 8))

/-- Its bytes. -/
def seqWire : Wire where
  planOk n := decide (n < 2 ^ 64)
  enc _ s := Serde.enc pairs s
  dec _ bs := Serde.dec pairs bs

theorem seqWire_faithful : seqWire.Faithful := by
  intro n s c hn hs
  simp only [seqWire, decide_eq_true_eq] at hn ⊢
  rw [← hs] at hn
  exact Serde.dec_enc pairs s c ⟨hn, fun _ _ => ⟨trivial, trivial⟩⟩

/-- The words of a complex number. -/
def bitsOf (z : C64) : Serde.C64 := (toBits z.re, toBits z.im)

theorem bits_ofRat (q : ℚ) : ofBits (toBits (ofRat q)) = ofRat q := by
  simp only [ofRat]
  split
  · decide +kernel
  · split
    · decide +kernel
    · exact ofBits_toBits (rep_rnd q) (by rw [abs_lt]; constructor <;> linarith)

theorem bits_roundC (z : ℂ) : complexOf (bitsOf (roundC z)) = roundC z := by
  simp only [complexOf, bitsOf, roundC, round64, bits_ofRat]

/-- The conversion of a key by an ideal plan can be stored in memory. -/
theorem exists_memory (n : ℕ) (hn : 0 < n) (ρ : ℕ → ℂ) (c : Cpu) (tw : List C64) (count : ℕ) (coefs : List (BitVec w))
    (hl : coefs.length = count * (2 * n)) :
    ∃ data : List Serde.C64, data.length = count * n ∧
      keyOf n data = convert (fftTransform w c (idealPlanOf n ρ) tw) (2 * n) coefs := by
  have hlen : ∀ p : List (BitVec w), (forwardAsTorus (idealPlanOf n ρ) tw p).length = n := by
    intro p
    simp [forwardAsTorus, idealPlanOf]
  have hall : ∀ x ∈ (chunks (2 * n) coefs).map (fun p => (forwardAsTorus (idealPlanOf n ρ) tw p).map bitsOf), x.length = n := by
    intro x hx
    obtain ⟨p, _, rfl⟩ := List.mem_map.1 hx
    rw [List.length_map, hlen]
  refine ⟨((chunks (2 * n) coefs).map fun p => (forwardAsTorus (idealPlanOf n ρ) tw p).map bitsOf).flatten, ?_, ?_⟩
  · rw [List.length_flatten, List.map_map, List.map_congr_left (g := fun _ => n), List.map_const', List.sum_replicate,
      chunks_length _ (by omega) count _ hl, smul_eq_mul]
    intro p _
    simp only [Function.comp_apply, List.length_map, hlen]
  · rw [keyOf, chunks_of_flatten n hn _ hall, List.map_map, convert]
    apply List.map_congr_left
    intro p _
    simp only [Function.comp_apply, List.map_map]
    refine congrArg some ?_
    simp only [forwardAsTorus, idealPlanOf, List.map_map]
    apply List.map_congr_left
    intro k _
    exact bits_roundC _

theorem small_valid : Serde.FourierList.Valid (seqWire.codec forwardOrder) ⟨[(1, 2), (3, 4), (5, 6), (7, 8)], 4⟩ 2 :=
  ⟨by decide, by decide, by decide, by decide, by decide, by decide⟩

/-- The coefficients of two polynomials of size 4, written in one order and read in the other. -/
example : ∃ bytes, fourierSerialize (seqWire.codec forwardOrder) Schema.fourierGgswTail
      ⟨⟨[(1, 2), (3, 4), (5, 6), (7, 8)], 4⟩, ((1 : BitVec 64), (4 : BitVec 64), (2 : BitVec 64))⟩ = .ok bytes ∧
    fourierDeserialize (seqWire.codec backwardOrder) .debug Schema.fourierGgswTail bytes =
      .ok ⟨⟨[(3, 4), (1, 2), (7, 8), (5, 6)], 4⟩, ((1 : BitVec 64), (4 : BitVec 64), (2 : BitVec 64))⟩ := by
  obtain ⟨bytes, h1, h2⟩ := Serde.entity_transfer seqWire seqWire_faithful forwardOrder backwardOrder .debug Schema.fourierGgswTail
    ⟨⟨[(1, 2), (3, 4), (5, 6), (7, 8)], 4⟩, ((1 : BitVec 64), (4 : BitVec 64), (2 : BitVec 64))⟩ 2 small_valid
    ⟨trivial, trivial, trivial⟩
  have h3 := h2 []
  rw [List.append_nil] at h3
  exact ⟨bytes, h1, h3⟩

/-- The hypotheses of `C84_bootstrap_partial` are met: the first machine keeps the coefficients in the standard order, the
second one in the opposite order. -/
example : ∃ (bsk : List (BitVec 64)) (x : FourierEntity Schema.fourierBskTail) (bytes : List Serde.Byte)
    (y : FourierEntity Schema.fourierBskTail) (r : List (BitVec 64)),
    fourierSerialize (seqWire.codec forwardOrder) _ x = .ok bytes ∧
    fourierDeserialize (seqWire.codec backwardOrder) .release Schema.fourierBskTail bytes = .ok y ∧
    x.fourier.data.length = 60 * 2 ^ (10 - 1) ∧
    bootstrap (cmuxFft (fftTransform 64 avx2Cpu
        (idealPlanOf (2 ^ (10 - 1)) (inOrder backwardOrder (2 ^ (10 - 1)) (stdRoots (2 ^ (10 - 1)))))
        (twisties idealSinCos (2 ^ (10 - 1)))) (2 ^ 10) 1 8 3)
      (2 ^ 10) 10 (List.replicate (1 * 2 ^ 10 + 1) 0) (List.replicate 6 5)
      (List.replicate (1 * 2 ^ 10) 0#64 ++ List.replicate (2 ^ 10) 7)
      (chunks (3 * ((1 + 1) * (1 + 1))) (keyOf (2 ^ (10 - 1)) y.fourier.data)) = some r ∧
    Lwe.Fits (List.replicate (2 ^ 10) 1#64) r ∧
    keyOf (2 ^ (10 - 1)) x.fourier.data = convert (fftTransform 64 armCpu
        (idealPlanOf (2 ^ (10 - 1)) (inOrder forwardOrder (2 ^ (10 - 1)) (stdRoots (2 ^ (10 - 1)))))
        (twisties idealSinCos (2 ^ (10 - 1)))) (2 ^ 10) bsk := by
  obtain ⟨bsk, h⟩ := exists_bsk (2 ^ 10) 1 8 3 (by norm_num) (by decide) (List.replicate 5 1#64) (List.replicate (2 ^ 10) 1)
  obtain ⟨a1, a2⟩ := C31_trivial_accumulator (2 ^ 10) 1 (by norm_num) (List.replicate (2 ^ 10) 1#64)
    (List.replicate (2 ^ 10) 7) List.length_replicate
  have hstd : Roots (2 ^ (10 - 1)) (stdRoots (2 ^ (10 - 1))) := stdRoots_roots (by norm_num)
  have hp : ∀ o : Order, FwdOk (2 ^ (10 - 1)) (idealPlanOf (2 ^ (10 - 1)) (inOrder o (2 ^ (10 - 1)) (stdRoots (2 ^ (10 - 1)))))
      (inOrder o (2 ^ (10 - 1)) (stdRoots (2 ^ (10 - 1)))) (2 * u53) ∧
      InvOk (2 ^ (10 - 1)) (idealPlanOf (2 ^ (10 - 1)) (inOrder o (2 ^ (10 - 1)) (stdRoots (2 ^ (10 - 1)))))
      (inOrder o (2 ^ (10 - 1)) (stdRoots (2 ^ (10 - 1)))) (2 * u53) := fun o =>
    idealPlanOf_accurate _ (by norm_num) _ (inOrder_roots hstd)
  obtain ⟨data, d1, d2⟩ := exists_memory (2 ^ (10 - 1)) (by norm_num)
    (inOrder forwardOrder (2 ^ (10 - 1)) (stdRoots (2 ^ (10 - 1)))) armCpu (twisties idealSinCos (2 ^ (10 - 1))) 60 bsk
    (by rw [h.1, List.length_replicate]; norm_num)
  obtain ⟨bytes, b1, y, b2, _, _, r, r1, r2, _⟩ := C84_bootstrap_partial (Or.inr rfl) 10 1 8 3 (by norm_num) (by norm_num) (by norm_num)
    seqWire seqWire_faithful .release (stdRoots (2 ^ (10 - 1))) hstd (2 * u53) (by linarith [u53_pos])
    forwardOrder armCpu _ (hp _).1 idealSinCos idealSinCos_accurate
    backwardOrder avx2Cpu (by decide) _ (hp _).1 (hp _).2 idealSinCos idealSinCos_accurate
    (ideal_const (3 * (1 + 1)) (by norm_num)) 1 0 ⟨by decide, by decide, by decide⟩ (by norm_num) le_rfl
    (List.replicate 5 1#64) (List.replicate (2 ^ 10) 1) bsk _ (List.replicate (2 ^ 10) 7) (List.replicate 6 5)
    (List.replicate (1 * 2 ^ 10 + 1) 0) (by rw [KeyFits, List.length_replicate, one_mul])
    (by intro x hx; rw [List.eq_of_mem_replicate hx]; decide) (by intro x hx; rw [List.eq_of_mem_replicate hx]; decide)
    h a1 List.length_replicate a2 (by simp [Lwe.Fits]) List.length_replicate
    ⟨⟨data, 2 ^ 10⟩, ((5 : BitVec 64), (2 : BitVec 64), (8 : BitVec 64), (3 : BitVec 64))⟩ 60
    ⟨by norm_num, by norm_num, by rw [d1]; norm_num, by rw [d1]; norm_num, by norm_num, by norm_num [Wire.codec, seqWire]⟩
    ⟨trivial, trivial, trivial, trivial⟩ rfl d2
  exact ⟨bsk, _, bytes, y, r, b1, b2, d1, r1, r2, d2⟩

end Verif.Fft
