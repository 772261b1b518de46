import Verif.Pks.KeyGen
import Verif.Pbs.Examples
/-
Properties C32 (packing keyswitch) and C33 (private functional packing keyswitch).

`KeyEnc` and `const` are in `Verif.Pks.Spec`, `phase`/`Fits` in `Verif.Lwe.Spec`, `glwePhase` in
`Verif.Glwe.Spec`, `Representable`/`signedDiff` in `Verif.Decomp.Spec`, `Small` in `Verif.Poly.Spec`.
-/
set_option linter.unusedSectionVars false
namespace Verif.Pks
open Verif.Random Verif.Poly Verif.Glwe Verif.Decomp Verif.Lwe

variable {w : Nat}

/-- The rounding error of one LWE ciphertext: `Σ s_i (a_i - c_i)`. -/
theorem rounding_pack {N : Nat} (s before : List (BitVec w)) (c : Nat → BitVec w) :
    const N (before.getD s.length 0) - ∑ i ∈ Finset.range s.length, const N (c i) * const N (s.getD i 0) =
    const N (phase s before + ∑ i ∈ Finset.range s.length, s.getD i 0 * (before.getD i 0 - c i)) := by
  rw [phase, const_add, const_sub, const_sum, const_sum, sub_add]
  congr 1
  rw [← Finset.sum_sub_distrib]
  refine Finset.sum_congr rfl fun i _ => ?_
  rw [const_mul, const_mul, const_sub]; ring

/-- C32, one ciphertext: keyswitching `before` with a key whose block `i` encrypts `s_i` gives a GLWE
ciphertext whose phase is the constant `phase(before) + Σ s_i (a_i - c_i)` minus the digits times the key
errors; `c_i` is the representable value nearest to `a_i`. The previous content of the output is
irrelevant. -/
theorem C32_one {N k : Nat} (hN : 0 < N) (b l : Nat) (hv : ValidParams w b l)
    (s key ksk before : List (BitVec w)) (err : Nat → Nat → Rq (BitVec w) N)
    (hk : KeyEnc N k b l s.length key ksk (fun i => const N (s.getD i 0)) err)
    (hb : Fits s before) :
    ∃ (c : Nat → BitVec w) (d : Nat → Nat → Int),
      (∀ i, i < s.length → Representable b l (c i) ∧
        -(2 ^ (w - b * l - 1) : Int) ≤ signedDiff (before.getD i 0) (c i) ∧
        signedDiff (before.getD i 0) (c i) < 2 ^ (w - b * l - 1)) ∧
      (∀ i j, i < s.length → j < l → -(2 ^ (b - 1) : Int) ≤ d i j ∧ d i j ≤ 2 ^ (b - 1)) ∧
      ∀ after, CtFits N k after → ∃ r, packingKeyswitchOne b l N k ksk after before = some r ∧ CtFits N k r ∧
        glwePhase N k key r =
          const N (phase s before + ∑ i ∈ Finset.range s.length, s.getD i 0 * (before.getD i 0 - c i)) -
          ∑ i ∈ Finset.range s.length, ∑ j ∈ Finset.range l, (d i j : Rq (BitVec w) N) * err i j := by
  obtain ⟨mask, body, rfl, hm⟩ := exists_split hb
  have hmask : ∀ i, i < s.length → (mask ++ [body]).getD i 0 = mask.getD i 0 := by
    intro i hi
    simp only [List.getD_eq_getElem?_getD, List.getElem?_append_left (show i < mask.length by omega)]
  have hbody : (mask ++ [body]).getD s.length 0 = body := by
    simp [List.getD_eq_getElem?_getD, ← hm]
  have hr0 : CtFits N k (List.replicate ((k + 1) * N) (0#w)) := by simp [CtFits]
  have hi0 := phase_init hN key _ hr0 body
  obtain ⟨c, d, h1, h2, h3, h4⟩ := blocks_spec hN b l s.length hv key ksk _ err hk mask hm _ hi0.1
  refine ⟨c, d, fun i hi => by rw [hmask i hi]; exact h1 i hi, h2, fun after ha => ?_⟩
  have hsame : (after.map fun _ => 0#w).set (after.length - N) body =
      ((List.replicate ((k + 1) * N) (0#w)).map fun _ => 0#w).set
        ((List.replicate ((k + 1) * N) (0#w)).length - N) body := by
    rw [List.map_const', List.map_const', ha]; simp
  refine ⟨_, ?_, h3, ?_⟩
  · simp only [packingKeyswitchOne, List.getLast?_append, List.getLast?_singleton, Option.some_or,
      List.dropLast_concat, if_neg hN.ne', hsame]
  · rw [h4, hi0.2, ← rounding_pack s (mask ++ [body]) c, hbody]

/-- C32: packing `m` ciphertexts (`m ≤ N`, or any number in release builds) gives phase
`Σ_t X^t (phase(c_t) + Σ_i s_i (a_{t,i} - c_{t,i}) - Σ_{i,j} d_{t,i,j} err_{i,j})`. -/
theorem C32_packing (bld : Csprng.Build) {N k : Nat} (hN : 0 < N) (b l m : Nat) (hv : ValidParams w b l)
    (s key ksk output input : List (BitVec w)) (err : Nat → Nat → Rq (BitVec w) N)
    (hk : KeyEnc N k b l s.length key ksk (fun i => const N (s.getD i 0)) err)
    (ho : CtFits N k output) (hin : input.length = m * (s.length + 1)) (hm : bld = .release ∨ m ≤ N) :
    ∃ (r : List (BitVec w)) (c : Nat → Nat → BitVec w) (d : Nat → Nat → Nat → Int),
      packingKeyswitch bld b l N k (s.length + 1) ksk output input = some r ∧ CtFits N k r ∧
      (∀ t i, t < m → i < s.length → Representable b l (c t i) ∧
        -(2 ^ (w - b * l - 1) : Int) ≤ signedDiff ((block (s.length + 1) input t).getD i 0) (c t i) ∧
        signedDiff ((block (s.length + 1) input t).getD i 0) (c t i) < 2 ^ (w - b * l - 1)) ∧
      (∀ t i j, t < m → i < s.length → j < l → -(2 ^ (b - 1) : Int) ≤ d t i j ∧ d t i j ≤ 2 ^ (b - 1)) ∧
      glwePhase N k key r = ∑ t ∈ Finset.range m, Xq (BitVec w) N ^ t *
        (const N (phase s (block (s.length + 1) input t) +
          ∑ i ∈ Finset.range s.length, s.getD i 0 * ((block (s.length + 1) input t).getD i 0 - c t i)) -
        ∑ i ∈ Finset.range s.length, ∑ j ∈ Finset.range l, (d t i j : Rq (BitVec w) N) * err i j) := by
  have hpos : 0 < s.length + 1 := by omega
  have hcl := chunks_length _ hpos _ _ hin
  have hfit : ∀ t, t < m → Fits s (block (s.length + 1) input t) := fun t ht => block_len _ m t input hin ht
  have hone : ∀ t, ∃ (c : Nat → BitVec w) (d : Nat → Nat → Int), t < m →
      (∀ i, i < s.length → Representable b l (c i) ∧
        -(2 ^ (w - b * l - 1) : Int) ≤ signedDiff ((block (s.length + 1) input t).getD i 0) (c i) ∧
        signedDiff ((block (s.length + 1) input t).getD i 0) (c i) < 2 ^ (w - b * l - 1)) ∧
      (∀ i j, i < s.length → j < l → -(2 ^ (b - 1) : Int) ≤ d i j ∧ d i j ≤ 2 ^ (b - 1)) ∧
      ∀ after, CtFits N k after → ∃ r, packingKeyswitchOne b l N k ksk after (block (s.length + 1) input t) = some r ∧
        CtFits N k r ∧ glwePhase N k key r =
          const N (phase s (block (s.length + 1) input t) +
            ∑ i ∈ Finset.range s.length, s.getD i 0 * ((block (s.length + 1) input t).getD i 0 - c i)) -
          ∑ i ∈ Finset.range s.length, ∑ j ∈ Finset.range l, (d i j : Rq (BitVec w) N) * err i j := by
    intro t
    by_cases ht : t < m
    · obtain ⟨c, d, h⟩ := C32_one hN b l hv s key ksk _ err hk (hfit t ht)
      exact ⟨c, d, fun _ => h⟩
    · exact ⟨fun _ => 0, fun _ _ => 0, fun h => absurd h ht⟩
  choose c d hcd using hone
  have h0 : CtFits N k (output.map fun _ => 0#w) := by rw [CtFits, List.length_map]; exact ho
  obtain ⟨r, g1, g2, g3⟩ := packLoop_spec hN key (packingKeyswitchOne b l N k ksk) (chunks (s.length + 1) input)
    (fun t => const N (phase s (block (s.length + 1) input t) +
          ∑ i ∈ Finset.range s.length, s.getD i 0 * ((block (s.length + 1) input t).getD i 0 - c t i)) -
        ∑ i ∈ Finset.range s.length, ∑ j ∈ Finset.range l, (d t i j : Rq (BitVec w) N) * err i j)
    0 _ _ h0 h0 (by
      intro t ct hct after ha
      have ht : t < m := by rw [← hcl]; exact (List.getElem?_eq_some_iff.1 hct).1
      have : ct = block (s.length + 1) input t := by
        rw [chunks_eq _ hpos _ _ hin] at hct
        simpa [ht] using hct.symm
      rw [this]
      exact (hcd t ht).2.2 after ha)
  refine ⟨r, c, d, ?_, g2, fun t i ht => (hcd t ht).1 i, fun t i j ht => (hcd t ht).2.1 i j, ?_⟩
  · rw [packingKeyswitch, if_neg]
    · exact g1
    · rw [hcl]
      rintro ⟨h1, h2⟩
      rcases hm with hm | hm
      · rw [hm] at h1; cases h1
      · omega
  · rw [g3, hcl, List.map_const', phase_zero, zero_add]
    simp only [Nat.zero_add]

/-- C32: in debug builds, more than `N` ciphertexts panic. -/
theorem C32_too_many (b l N k L m : Nat) (hL : 0 < L) (ksk output input : List (BitVec w))
    (hin : input.length = m * L) (hm : N < m) :
    packingKeyswitch .debug b l N k L ksk output input = none := by
  rw [packingKeyswitch, if_pos ⟨rfl, by rw [chunks_length _ hL _ _ hin]; exact hm⟩]

/-! ### Error bounds -/

/-- A sum of monomials `r_t X^t`, `t < m ≤ N`, has the coefficients `r_t`. -/
theorem sum_monomials {R : Type} [CommRing R] {N : Nat} (m : Nat) (hm : m ≤ N) (r : Nat → R) :
    ∑ t ∈ Finset.range m, Xq R N ^ t * const N (r t) =
      toRq N ((List.range m).map r ++ List.replicate (N - m) 0) := by
  rw [toRq, toPoly]
  simp only [List.length_map, List.length_append, List.length_range, List.length_replicate]
  rw [show m + (N - m) = N by omega, map_sum]
  have hz : ∀ i ∈ Finset.range N, i ∉ Finset.range m → (AdjoinRoot.mk (Polynomial.X ^ N + 1 : Polynomial R))
      (Polynomial.C (((List.range m).map r ++ List.replicate (N - m) 0).getD i 0) * Polynomial.X ^ i) = 0 := by
    intro i hi hi'
    have h1 : m ≤ i := by simpa using hi'
    rw [List.getD_eq_getElem?_getD, List.getElem?_append_right (by simpa using h1), List.getElem?_replicate]
    split <;> simp
  rw [← Finset.sum_subset (Finset.range_mono hm) hz]
  refine Finset.sum_congr rfl fun i hi => ?_
  have hi' := Finset.mem_range.1 hi
  rw [List.getD_eq_getElem?_getD, List.getElem?_append_left (by simpa using hi'),
    List.getElem?_map, List.getElem?_range hi']
  simp only [Option.map_some, Option.getD_some, map_mul, map_pow, AdjoinRoot.mk_X, const, Xq]
  rw [mul_comm]; rfl

/-- The digits times the errors. -/
theorem small_digits {N : Nat} (hN : 0 < N) (n l b : Nat) (d : Nat → Nat → Int) (err : Nat → Nat → Rq (BitVec w) N)
    (B : Int) (hd : ∀ i j, i < n → j < l → -(2 ^ (b - 1) : Int) ≤ d i j ∧ d i j ≤ 2 ^ (b - 1))
    (he : ∀ i j, i < n → j < l → Small N B (err i j)) :
    Small N (n * (l * (2 ^ (b - 1) * B)))
      (∑ i ∈ Finset.range n, ∑ j ∈ Finset.range l, (d i j : Rq (BitVec w) N) * err i j) := by
  refine small_sum_const _ _ fun i hi => small_sum_const _ _ fun j hj => ?_
  have hB := (he i j hi hj).nonneg hN
  refine (small_int_mul (d i j) (he i j hi hj)).mono ?_
  exact mul_le_mul_of_nonneg_right (abs_le.2 (hd i j hi hj)) hB

/-- The rounding errors of a binary key, as an integer. -/
theorem rounding_int (s a c : Nat → BitVec w) (n : Nat) (D : Int) (hs : ∀ i, i < n → s i = 0 ∨ s i = 1)
    (hc : ∀ i, i < n → -D ≤ signedDiff (a i) (c i) ∧ signedDiff (a i) (c i) < D) :
    ∃ R : Int, ∑ i ∈ Finset.range n, s i * (a i - c i) = (R : BitVec w) ∧ |R| ≤ n * D := by
  induction n with
  | zero => exact ⟨0, by simp, by simp⟩
  | succ n ih =>
    obtain ⟨R, h1, h2⟩ := ih (fun i hi => hs i (by omega)) (fun i hi => hc i (by omega))
    obtain ⟨hl, hu⟩ := hc n (by omega)
    rw [Finset.sum_range_succ, h1]
    rcases hs n (by omega) with h | h
    · refine ⟨R, by rw [h]; ring, ?_⟩
      push_cast
      have : 0 ≤ D := by omega
      rw [add_mul]; omega
    · refine ⟨R + signedDiff (a n) (c n), ?_, ?_⟩
      · rw [h, one_mul]; push_cast; rw [signedDiff, BV.intCast_toInt]
      · have := abs_add_le R (signedDiff (a n) (c n))
        have h3 : |signedDiff (a n) (c n)| ≤ D := abs_le.2 ⟨hl, hu.le⟩
        push_cast
        rw [add_mul]; omega

/-- C32, in terms of decryption. With a binary input key and key errors at most `B`, packing `m ≤ N`
ciphertexts gives a ciphertext that decrypts, in coefficient `t < m`, to `phase(c_t)` plus an integer of
absolute value at most `n 2^(w-bl-1) + m n l 2^(b-1) B`, and in the other coefficients to an integer of
absolute value at most `m n l 2^(b-1) B`. -/
theorem C32_decrypt (bld : Csprng.Build) {N k : Nat} (hN : 0 < N) (b l m : Nat) (hv : ValidParams w b l)
    (s key ksk output input buf : List (BitVec w)) (err : Nat → Nat → Rq (BitVec w) N) (B : Int)
    (hk : KeyEnc N k b l s.length key ksk (fun i => const N (s.getD i 0)) err)
    (he : ∀ i j, i < s.length → j < l → Small N B (err i j)) (hs : BinaryKey s) (hkf : KeyFits N k key)
    (ho : CtFits N k output) (hin : input.length = m * (s.length + 1)) (hm : m ≤ N) (hbuf : buf.length = N) :
    ∃ (r : List (BitVec w)) (E : Nat → Int),
      packingKeyswitch bld b l N k (s.length + 1) ksk output input = some r ∧ CtFits N k r ∧
      ∀ t, t < N → (decryptGlwe N key buf r).getD t 0 =
          (if t < m then phase s (block (s.length + 1) input t) else 0) + ((E t : Int) : BitVec w) ∧
        |E t| ≤ (if t < m then s.length * 2 ^ (w - b * l - 1) else 0) +
          m * (s.length * (l * (2 ^ (b - 1) * B))) := by
  obtain ⟨r, c, d, h1, h2, h3, h4, h5⟩ := C32_packing bld hN b l m hv s key ksk output input err hk ho hin
    (Or.inr hm)
  have hround : ∀ t, ∃ R : Int, t < m → ∑ i ∈ Finset.range s.length,
      s.getD i 0 * ((block (s.length + 1) input t).getD i 0 - c t i) = (R : BitVec w) ∧
      |R| ≤ s.length * 2 ^ (w - b * l - 1) := by
    intro t
    by_cases ht : t < m
    · obtain ⟨R, g1, g2⟩ := rounding_int (fun i => s.getD i 0) (fun i => (block (s.length + 1) input t).getD i 0)
        (c t) s.length (2 ^ (w - b * l - 1)) (fun i hi => hs _ (by
          simp [List.getD_eq_getElem?_getD, List.getElem?_eq_getElem hi]))
        (fun i hi => (h3 t i ht hi).2)
      exact ⟨R, fun _ => ⟨g1, g2⟩⟩
    · exact ⟨0, fun h => absurd h ht⟩
  choose R hR using hround
  have hdig := small_sum_const (n := m) (fun t => Xq (BitVec w) N ^ t * ∑ i ∈ Finset.range s.length,
    ∑ j ∈ Finset.range l, (d t i j : Rq (BitVec w) N) * err i j) (s.length * (l * (2 ^ (b - 1) * B)))
    (fun t ht => (small_digits hN s.length l b (d t) err B (fun i j => h4 t i j ht) he).monomial hN t)
  obtain ⟨z, z1, z2, z3⟩ := hdig
  obtain ⟨d1, d2⟩ := decryptGlwe_spec N k hN key buf r hkf h2 hbuf
  -- the value of the decryption, as a list
  have hval : decryptGlwe N key buf r = Poly.sub (Poly.add
      (((List.range m).map fun t => phase s (block (s.length + 1) input t)) ++ List.replicate (N - m) 0)
      (((List.range m).map R ++ List.replicate (N - m) 0).map fun z : Int => (z : BitVec w)))
      (z.map fun z : Int => (z : BitVec w)) := by
    apply toRq_inj N hN _ _ d1 (by simp [Poly.sub, Poly.add, zipUpdate_length]; omega)
    rw [d2, h5, toRq_sub N _ _ (by simp [Poly.add, zipUpdate_length, z1]; omega), ← z3,
      toRq_add N _ _ (by simp)]
    have hsp : ∀ t ∈ Finset.range m, Xq (BitVec w) N ^ t *
        (const N (phase s (block (s.length + 1) input t) + ∑ i ∈ Finset.range s.length, s.getD i 0 * ((block (s.length + 1) input t).getD i 0 - c t i)) -
        ∑ i ∈ Finset.range s.length, ∑ j ∈ Finset.range l, (d t i j : Rq (BitVec w) N) * err i j) =
        Xq (BitVec w) N ^ t * const N (phase s (block (s.length + 1) input t) + ∑ i ∈ Finset.range s.length, s.getD i 0 * ((block (s.length + 1) input t).getD i 0 - c t i)) -
        Xq (BitVec w) N ^ t * ∑ i ∈ Finset.range s.length, ∑ j ∈ Finset.range l, (d t i j : Rq (BitVec w) N) * err i j :=
      fun t _ => mul_sub _ _ _
    rw [Finset.sum_congr rfl hsp, Finset.sum_sub_distrib]
    congr 1
    have hRl : (((List.range m).map R ++ List.replicate (N - m) 0).map fun z : Int => (z : BitVec w)) =
        (List.range m).map (fun t => ((R t : Int) : BitVec w)) ++ List.replicate (N - m) 0 := by
      rw [List.map_append, List.map_map, List.map_replicate, Int.cast_zero]; rfl
    rw [hRl, ← sum_monomials m hm, ← sum_monomials m hm, ← Finset.sum_add_distrib]
    refine Finset.sum_congr rfl fun t ht => ?_
    rw [(hR t (Finset.mem_range.1 ht)).1, const_add, mul_add]
  refine ⟨r, fun t => (if t < m then R t else 0) - z.getD t 0, h1, h2, fun t ht => ⟨?_, ?_⟩⟩
  · rw [hval, Poly.sub, zipUpdate_getD _ _ _ _ 0 0 (by simp [Poly.add, zipUpdate_length]; omega) (by simp [z1, ht]),
      Poly.add, zipUpdate_getD _ _ _ _ 0 0 (by simp; omega) (by simp; omega), getD_map_cast, getD_map_cast]
    beta_reduce
    by_cases htm : t < m
    · rw [if_pos htm, if_pos htm]
      have e1 : (((List.range m).map fun t => phase s (block (s.length + 1) input t)) ++ List.replicate (N - m) 0).getD t 0 =
          phase s (block (s.length + 1) input t) := by
        rw [List.getD_eq_getElem?_getD, List.getElem?_append_left (by simpa using htm), List.getElem?_map,
          List.getElem?_range htm]; rfl
      have e2 : ((List.range m).map R ++ List.replicate (N - m) 0).getD t 0 = R t := by
        rw [List.getD_eq_getElem?_getD, List.getElem?_append_left (by simpa using htm), List.getElem?_map,
          List.getElem?_range htm]; rfl
      rw [e1, e2]; push_cast; ring
    · rw [if_neg htm, if_neg htm]
      have e1 : (((List.range m).map fun t => phase s (block (s.length + 1) input t)) ++ List.replicate (N - m) 0).getD t 0 = 0 := by
        rw [List.getD_eq_getElem?_getD, List.getElem?_append_right (by simp; omega), List.getElem?_replicate]
        split <;> rfl
      have e2 : ((List.range m).map R ++ List.replicate (N - m) 0).getD t 0 = 0 := by
        rw [List.getD_eq_getElem?_getD, List.getElem?_append_right (by simp; omega), List.getElem?_replicate]
        split <;> rfl
      rw [e1, e2]; push_cast; ring
  · have hz : |z.getD t 0| ≤ m * (s.length * (l * (2 ^ (b - 1) * B))) := by
      apply z2
      rw [List.getD_eq_getElem?_getD, List.getElem?_eq_getElem (by omega)]
      exact List.getElem_mem _
    refine (abs_sub _ _).trans (add_le_add ?_ hz)
    by_cases htm : t < m
    · rw [if_pos htm, if_pos htm]; exact (hR t htm).2
    · rw [if_neg htm, if_neg htm]; simp

end Verif.Pks
