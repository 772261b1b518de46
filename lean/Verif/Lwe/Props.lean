import Verif.Lwe.Lemmas
/-
Properties C12 - C15: LWE encryption, linear operations, affine transformation, trivial encryption.
`phase` is defined in `Verif.Lwe.Spec`.
-/
set_option linter.unusedSectionVars false
namespace Verif.Lwe
open Verif.Random

/-! ### C12 -/

section
variable {R : Type} [CommRing R]

/-- Decryption computes the phase, for every ciphertext of the right dimension. -/
theorem C12_decrypt_is_phase (s ct : List R) (h : Fits s ct) : decryptLwe s ct = some (phase s ct) :=
  decryptLwe_eq h
end

/-- C12. Decrypting an encryption of `msg` gives `msg + e` modulo `2^w`, where `e` is the noise value
that this encryption draws from the noise generator. The encryption panics only if the mask bytes or
the noise bytes run out. -/
theorem C12_encrypt_decrypt {w : Nat} (f : GaussianFn w) (key out : List (BitVec w)) (msg : BitVec w)
    (g : EncGen) (ho : Fits key out) :
    (∀ ct g', encryptLwe f key out msg g = some (ct, g') →
      ∃ e, randomNoise f g.noise = some (e, g'.noise) ∧ decryptLwe key ct = some (msg + e)) ∧
    (g.mask.pos + key.length * (w / 8) ≤ g.mask.bound → (∃ e gn, randomNoise f g.noise = some (e, gn)) →
      ∃ r, encryptLwe f key out msg g = some r) := by
  constructor
  · intro ct g' h
    obtain ⟨e, hn, hf, hp⟩ := encryptLwe_phase ho h
    exact ⟨e, hn, by rw [decryptLwe_eq hf, hp]⟩
  · rintro hm ⟨e, gn, hn⟩
    obtain ⟨ct, h⟩ := encryptLwe_ok f key out msg g ho hm e gn hn
    exact ⟨_, h⟩

/-- C12, debug builds: with a binary key the checked product of `compute_multisum` never overflows, so
debug and release builds agree. -/
theorem C12_debug_binary {w : Nat} (mask key : List (BitVec w)) (hk : BinaryKey key) :
    multisumDebug mask key = some (multisum mask key) := by
  have aux : ∀ (l : List (BitVec w × BitVec w)) (a : BitVec w), (∀ p ∈ l, p.2 = 0 ∨ p.2 = 1) →
      l.foldl (fun acc p => match acc with
        | none => none
        | some a => if p.1.toNat * p.2.toNat < 2 ^ w then some (a + p.1 * p.2) else none) (some a) =
      some (l.foldl (fun acc p => acc + p.1 * p.2) a) := by
    intro l
    induction l with
    | nil => intro a _; rfl
    | cons p l ih =>
      intro a h
      have hp : p.1.toNat * p.2.toNat < 2 ^ w := by
        have h1 := p.1.isLt
        have h2 : p.2.toNat ≤ 1 := by
          rcases h p (by simp) with e | e
          · rw [e]; exact Nat.zero_le 1
          · rw [e]
            show (1#w).toNat ≤ 1
            rw [BitVec.toNat_ofNat]; exact Nat.mod_le _ _
        calc p.1.toNat * p.2.toNat ≤ p.1.toNat * 1 := Nat.mul_le_mul_left _ h2
          _ < 2 ^ w := by omega
      simp only [List.foldl_cons, hp, if_true]
      exact ih _ (fun q hq => h q (by simp [hq]))
  exact aux _ _ (fun p hp => hk _ (List.of_mem_zip hp).2)

/-- Finding (C12): with a ternary key (a key coefficient `-1`, which the library can generate) the
unchecked-in-release product overflows, so a debug build panics while a release build encrypts. -/
theorem C12_debug_ternary_panics :
    multisumDebug [2#32] [0#32 - 1#32] = none ∧ multisum [2#32] [0#32 - 1#32] = 0#32 - 2#32 := by
  decide

/-- C12 is not vacuous: an encryption under a key of dimension 2 succeeds, and decrypts to
`msg + e`. -/
example :
    let f : GaussianFn 16 := { accept := fun _ _ => true, value := fun _ _ => (3#16, 4#16) }
    let g : EncGen := { mask := ⟨fun p => BitVec.ofNat 8 (p * p), 1, 1000⟩, noise := ⟨fun _ => 1#8, 1, 1000⟩ }
    (encryptLwe f [1#16, 1#16] [0#16, 0#16, 0#16] 100#16 g).bind (fun r => decryptLwe [1#16, 1#16] r.1) =
      some 103#16 := by decide

/-! ### C13 -/

section
variable {R : Type} [CommRing R]

/-- C13, addition into a discarded output. -/
theorem C13_discard_add (s out a b : List R) (ho : Fits s out) (ha : Fits s a) (hb : Fits s b) :
    ∃ r, discardAdd out a b = .ok r ∧ Fits s r ∧ phase s r = phase s a + phase s b := by
  have e1 : ¬ (lweDim out ≠ lweDim a ∨ lweDim out ≠ lweDim b) := by
    simp only [lweDim]; rw [ho, ha, hb]; simp
  refine ⟨updateWithAdd a b, ?_, fits_zipUpdate _ ha, phase_add ha hb⟩
  rw [discardAdd, if_neg e1, fillWithCopy, if_pos (by rw [ho, ha])]; rfl

/-- C13, in-place addition. -/
theorem C13_fuse_add (s out a : List R) (ho : Fits s out) (ha : Fits s a) :
    ∃ r, fuseAdd out a = .ok r ∧ Fits s r ∧ phase s r = phase s out + phase s a := by
  refine ⟨updateWithAdd out a, ?_, fits_zipUpdate _ ho, phase_add ho ha⟩
  rw [fuseAdd, if_neg (by simp only [lweDim]; rw [ho, ha]; simp)]

/-- C13, subtraction into a discarded output. -/
theorem C13_discard_sub (s out a b : List R) (ho : Fits s out) (ha : Fits s a) (hb : Fits s b) :
    ∃ r, discardSub out a b = .ok r ∧ Fits s r ∧ phase s r = phase s a - phase s b := by
  have e1 : ¬ (lweDim out ≠ lweDim a ∨ lweDim out ≠ lweDim b) := by
    simp only [lweDim]; rw [ho, ha, hb]; simp
  refine ⟨updateWithSub a b, ?_, fits_zipUpdate _ ha, phase_sub ha hb⟩
  rw [discardSub, if_neg e1, fillWithCopy, if_pos (by rw [ho, ha])]; rfl

/-- C13, in-place subtraction. -/
theorem C13_fuse_sub (s out a : List R) (ho : Fits s out) (ha : Fits s a) :
    ∃ r, fuseSub out a = .ok r ∧ Fits s r ∧ phase s r = phase s out - phase s a := by
  refine ⟨updateWithSub out a, ?_, fits_zipUpdate _ ho, phase_sub ho ha⟩
  rw [fuseSub, if_neg (by simp only [lweDim]; rw [ho, ha]; simp)]

/-- C13, opposite into a discarded output. -/
theorem C13_discard_opp (s out a : List R) (ho : Fits s out) (ha : Fits s a) :
    ∃ r, discardOpp out a = .ok r ∧ Fits s r ∧ phase s r = - phase s a := by
  refine ⟨updateWithNeg a, ?_, by simpa [Fits, updateWithNeg] using ha, phase_neg⟩
  rw [discardOpp, if_neg (by simp only [lweDim]; rw [ho, ha]; simp), fillWithCopy,
    if_pos (by rw [ho, ha])]; rfl

/-- C13, in-place opposite. -/
theorem C13_fuse_opp (s out : List R) (ho : Fits s out) :
    ∃ r, fuseOpp out = .ok r ∧ Fits s r ∧ phase s r = - phase s out :=
  ⟨_, rfl, by simpa [Fits, updateWithNeg] using ho, phase_neg⟩

/-- C13, multiplication by a cleartext into a discarded output. -/
theorem C13_discard_mul_cleartext (s out a : List R) (x : R) (ho : Fits s out) (ha : Fits s a) :
    ∃ r, discardMulCleartext out a x = .ok r ∧ Fits s r ∧ phase s r = phase s a * x := by
  refine ⟨fillWithScalarMul out a x, ?_, fits_zipUpdate _ ho, ?_⟩
  · rw [discardMulCleartext, if_neg (by simp only [lweDim]; rw [ho, ha]; simp)]
  · have e : (fun _ i : R => i * x) = fun a b => 0 * a + x * b := by funext a b; ring
    rw [fillWithScalarMul, e, phase_zipUpdate 0 x ho ha]; ring

/-- C13, in-place multiplication by a cleartext. -/
theorem C13_fuse_mul_cleartext (s out : List R) (x : R) (ho : Fits s out) :
    ∃ r, fuseMulCleartext out x = .ok r ∧ Fits s r ∧ phase s r = phase s out * x :=
  ⟨_, rfl, by simpa [Fits, updateWithScalarMul] using ho, phase_map x⟩

/-- C13, addition of a plaintext into a discarded output. -/
theorem C13_discard_add_plaintext (s out a : List R) (p : R) (ho : Fits s out) (ha : Fits s a) :
    ∃ r, discardAddPlaintext out a p = .ok r ∧ Fits s r ∧ phase s r = phase s a + p := by
  obtain ⟨r, e, hr, hp⟩ := addToBody_eq p ha
  refine ⟨r, ?_, hr, hp⟩
  rw [discardAddPlaintext, if_neg (by simp only [lweDim]; rw [ho, ha]; simp), fillWithCopy,
    if_pos (by rw [ho, ha]), Option.bind_some, e]; rfl

/-- C13, in-place addition of a plaintext. -/
theorem C13_fuse_add_plaintext (s out : List R) (p : R) (ho : Fits s out) :
    ∃ r, fuseAddPlaintext out p = .ok r ∧ Fits s r ∧ phase s r = phase s out + p := by
  obtain ⟨r, e, hr, hp⟩ := addToBody_eq p ho
  exact ⟨r, by rw [fuseAddPlaintext, e]; rfl, hr, hp⟩

/-- C13, subtraction of a plaintext into a discarded output. -/
theorem C13_discard_sub_plaintext (s out a : List R) (p : R) (ho : Fits s out) (ha : Fits s a) :
    ∃ r, discardSubPlaintext out a p = .ok r ∧ Fits s r ∧ phase s r = phase s a - p := by
  obtain ⟨r, e, hr, hp⟩ := subFromBody_eq p ha
  refine ⟨r, ?_, hr, hp⟩
  rw [discardSubPlaintext, if_neg (by simp only [lweDim]; rw [ho, ha]; simp), fillWithCopy,
    if_pos (by rw [ho, ha]), Option.bind_some, e]; rfl

/-- C13, in-place subtraction of a plaintext. -/
theorem C13_fuse_sub_plaintext (s out : List R) (p : R) (ho : Fits s out) :
    ∃ r, fuseSubPlaintext out p = .ok r ∧ Fits s r ∧ phase s r = phase s out - p := by
  obtain ⟨r, e, hr, hp⟩ := subFromBody_eq p ho
  exact ⟨r, by rw [fuseSubPlaintext, e]; rfl, hr, hp⟩

/-- C13 / C40, mismatched dimensions: the two-operand functions return the documented error. -/
theorem C13_dimension_mismatch (out a b : List R) (p : R) (h0 : out ≠ []) (h1 : a ≠ []) (h2 : b ≠ []) :
    (out.length ≠ a.length ∨ out.length ≠ b.length →
      discardAdd out a b = .err .lweDimensionMismatch ∧
      discardSub out a b = .err .lweDimensionMismatch) ∧
    (out.length ≠ a.length →
      fuseAdd out a = .err .lweDimensionMismatch ∧ fuseSub out a = .err .lweDimensionMismatch ∧
      discardOpp out a = .err .lweDimensionMismatch ∧
      discardMulCleartext out a p = .err .lweDimensionMismatch ∧
      discardAddPlaintext out a p = .err .lweDimensionMismatch ∧
      discardSubPlaintext out a p = .err .lweDimensionMismatch) := by
  have l0 := List.length_pos_of_ne_nil h0
  have l1 := List.length_pos_of_ne_nil h1
  have l2 := List.length_pos_of_ne_nil h2
  constructor
  · intro h
    have : lweDim out ≠ lweDim a ∨ lweDim out ≠ lweDim b := by simp only [lweDim]; omega
    exact ⟨if_pos this, if_pos this⟩
  · intro h
    have : lweDim out ≠ lweDim a := by simp only [lweDim]; omega
    exact ⟨if_pos this, if_pos this, if_pos this, if_pos this, if_pos this, if_pos this⟩

/-- A history of linear operations on a family of input ciphertexts. -/
inductive History (R : Type) where
  | input (i : Nat)
  | add (x y : History R)
  | sub (x y : History R)
  | opp (x : History R)
  | mulCleartext (x : History R) (c : R)
  | addPlaintext (x : History R) (p : R)
  | subPlaintext (x : History R) (p : R)

/-- The value a history is meant to compute, on cleartexts. -/
def History.value (v : Nat → R) : History R → R
  | .input i => v i
  | .add x y => x.value v + y.value v
  | .sub x y => x.value v - y.value v
  | .opp x => - x.value v
  | .mulCleartext x c => x.value v * c
  | .addPlaintext x p => x.value v + p
  | .subPlaintext x p => x.value v - p

/-- Running a history with the engine, every result going to a copy of the scratch ciphertext
`out`. -/
def History.run (out : List R) (c : Nat → List R) : History R → Res DimErr (List R)
  | .input i => .ok (c i)
  | .add x y => match x.run out c, y.run out c with
    | .ok a, .ok b => discardAdd out a b
    | _, _ => .panic
  | .sub x y => match x.run out c, y.run out c with
    | .ok a, .ok b => discardSub out a b
    | _, _ => .panic
  | .opp x => match x.run out c with
    | .ok a => discardOpp out a
    | _ => .panic
  | .mulCleartext x k => match x.run out c with
    | .ok a => discardMulCleartext out a k
    | _ => .panic
  | .addPlaintext x p => match x.run out c with
    | .ok a => discardAddPlaintext out a p
    | _ => .panic
  | .subPlaintext x p => match x.run out c with
    | .ok a => discardSubPlaintext out a p
    | _ => .panic

/-- C13, every history: any sequence of linear operations on ciphertexts of the right dimension
succeeds, and its result decrypts to the value computed on the decryptions of the inputs. -/
theorem C13_history (s out : List R) (c : Nat → List R) (ho : Fits s out) (hc : ∀ i, Fits s (c i))
    (h : History R) :
    ∃ r, h.run out c = .ok r ∧ Fits s r ∧
      decryptLwe s r = some (h.value (fun i => phase s (c i))) := by
  suffices H : ∃ r, h.run out c = .ok r ∧ Fits s r ∧
      phase s r = h.value (fun i => phase s (c i)) by
    obtain ⟨r, e, hf, hp⟩ := H
    exact ⟨r, e, hf, by rw [decryptLwe_eq hf, hp]⟩
  induction h with
  | input i => exact ⟨_, rfl, hc i, rfl⟩
  | add x y ihx ihy =>
    obtain ⟨a, ea, fa, pa⟩ := ihx
    obtain ⟨b, eb, fb, pb⟩ := ihy
    obtain ⟨r, e, fr, pr⟩ := C13_discard_add s out a b ho fa fb
    exact ⟨r, by simp only [History.run, ea, eb, e], fr, by rw [pr, pa, pb]; rfl⟩
  | sub x y ihx ihy =>
    obtain ⟨a, ea, fa, pa⟩ := ihx
    obtain ⟨b, eb, fb, pb⟩ := ihy
    obtain ⟨r, e, fr, pr⟩ := C13_discard_sub s out a b ho fa fb
    exact ⟨r, by simp only [History.run, ea, eb, e], fr, by rw [pr, pa, pb]; rfl⟩
  | opp x ihx =>
    obtain ⟨a, ea, fa, pa⟩ := ihx
    obtain ⟨r, e, fr, pr⟩ := C13_discard_opp s out a ho fa
    exact ⟨r, by simp only [History.run, ea, e], fr, by rw [pr, pa]; rfl⟩
  | mulCleartext x k ihx =>
    obtain ⟨a, ea, fa, pa⟩ := ihx
    obtain ⟨r, e, fr, pr⟩ := C13_discard_mul_cleartext s out a k ho fa
    exact ⟨r, by simp only [History.run, ea, e], fr, by rw [pr, pa]; rfl⟩
  | addPlaintext x k ihx =>
    obtain ⟨a, ea, fa, pa⟩ := ihx
    obtain ⟨r, e, fr, pr⟩ := C13_discard_add_plaintext s out a k ho fa
    exact ⟨r, by simp only [History.run, ea, e], fr, by rw [pr, pa]; rfl⟩
  | subPlaintext x k ihx =>
    obtain ⟨a, ea, fa, pa⟩ := ihx
    obtain ⟨r, e, fr, pr⟩ := C13_discard_sub_plaintext s out a k ho fa
    exact ⟨r, by simp only [History.run, ea, e], fr, by rw [pr, pa]; rfl⟩

end

/-- C13 on concrete ciphertexts of dimension 2: `(5,6,7) - (1,2,250)` modulo 256. -/
example : discardSub [0#8, 9#8, 9#8] [5#8, 6#8, 7#8] [1#8, 2#8, 250#8] = .ok [4#8, 4#8, 13#8] ∧
    Fits [1#8, 0#8] [5#8, 6#8, 7#8] ∧ phase [1#8, 0#8] [5#8, 6#8, 7#8] = 2#8 := by
  refine ⟨by decide, rfl, by decide⟩

/-! ### C14 -/

section
variable {R : Type} [CommRing R]

/-- C14, the part that holds: when accepted, the affine transformation adds `bias + Σ w_i · phase(c_i)`
to the previous phase of the output; with an output of phase zero (e.g. all zeros) it is the documented
result. Missing: the documented result for an arbitrary previous content, which is false
(`C14_violated`). -/
theorem C14_affine_partial (s out inputs weights : List R) (bias : R) (ho : Fits s out)
    (hi : inputs.length = weights.length * (s.length + 1)) :
    ∃ r, discardAffine out (s.length + 1) inputs weights bias = .ok r ∧ Fits s r ∧
      phase s r = phase s out + (bias +
        ∑ i ∈ Finset.range weights.length, weights.getD i 0 * phase s (block (s.length + 1) inputs i)) := by
  have hpos : 0 < s.length + 1 := by omega
  obtain ⟨r, e, hr, hp⟩ := fillWithMultisum_phase (s := s) (out := out)
    (chunks (s.length + 1) inputs) weights bias ho (by
      rw [chunks_eq _ hpos _ _ hi]
      intro c hc
      obtain ⟨i, hi', rfl⟩ := List.mem_map.1 hc
      rw [Fits]
      apply block_length
      rw [hi]
      exact Nat.mul_le_mul_right _ (List.mem_range.1 hi'))
  refine ⟨r, ?_, hr, ?_⟩
  · rw [discardAffine, if_neg (by simp only [lweDim]; rw [ho]; simp),
      if_neg (by rw [hi, Nat.mul_div_cancel _ hpos]; simp), e]; rfl
  · rw [hp, sum_zip_eq (phase s) _ _ (chunks_length _ hpos _ _ hi)]
    have e2 : ∀ i ∈ Finset.range weights.length,
        weights.getD i 0 * phase s ((chunks (s.length + 1) inputs).getD i []) =
        weights.getD i 0 * phase s (block (s.length + 1) inputs i) := by
      intro i hi'
      rw [chunks_eq _ hpos _ _ hi]
      simp [List.getD_eq_getElem?_getD, List.getElem?_range (Finset.mem_range.1 hi')]
    rw [Finset.sum_congr rfl e2]; ring

/-- C14, rejected arguments. -/
theorem C14_affine_errors (out inputs weights : List R) (n : Nat) (bias : R) (h0 : out ≠ []) :
    (out.length ≠ n + 1 → discardAffine out (n + 1) inputs weights bias = .err .lweDimensionMismatch) ∧
    (out.length = n + 1 → inputs.length / (n + 1) ≠ weights.length →
      discardAffine out (n + 1) inputs weights bias = .err .cleartextCountMismatch) := by
  have l0 := List.length_pos_of_ne_nil h0
  constructor
  · intro h
    rw [discardAffine, if_pos (by simp only [lweDim]; omega)]
  · intro h h'
    rw [discardAffine, if_neg (by simp only [lweDim]; omega), if_pos h']

end

/-- C14 is false as documented ("discarding"): in dimension 1, with one
input of phase 3, weight 2, bias 1 and an output that contained a ciphertext of phase 100, the result
has phase 107 instead of 7. -/
theorem C14_violated :
    ∃ r, discardAffine [0#32, 100#32] 2 [0#32, 3#32] [2#32] 1#32 = .ok r ∧ phase [1#32] r = 107#32 := by
  exact ⟨[0#32, 107#32], by decide, by decide⟩

example : discardAffine [0#8, 0#8] 2 [5#8, 3#8, 1#8, 4#8] [2#8, 3#8] 1#8 = .ok [13#8, 19#8] := by decide

/-! ### C15 (LWE part; the GLWE part is in `Verif.Glwe`) -/

section
variable {R : Type} [CommRing R]

/-- C15. A trivial encryption, fresh or written over any ciphertext, decrypts to exactly its message
under every key of its dimension; trivial decryption returns the message. -/
theorem C15_trivial (s out : List R) (m : R) (ho : Fits s out) :
    (∃ r, fillWithTrivialEncryption out m = some r ∧ Fits s r ∧ decryptLwe s r = some m ∧
      trivialDecrypt r = some m) ∧
    (∃ r, trivialEncrypt (s.length + 1) m = some r ∧ Fits s r ∧ decryptLwe s r = some m ∧
      trivialDecrypt r = some m) := by
  have main : ∀ out : List R, Fits s out →
      ∃ r, fillWithTrivialEncryption out m = some r ∧ Fits s r ∧ decryptLwe s r = some m ∧
        trivialDecrypt r = some m := by
    intro out ho
    obtain ⟨mask, b, rfl, hm⟩ := exists_split ho
    refine ⟨List.replicate s.length 0 ++ [m], by simp [fillWithTrivialEncryption, hm],
      by simp [Fits], ?_, by simp [trivialDecrypt]⟩
    rw [decryptLwe_eq (by simp [Fits]), phase_append _ _ _ (by simp), multisum_zero, sub_zero]
  exact ⟨main out ho, main _ (by simp [Fits])⟩

end

example : trivialEncrypt 3 42#8 = some [0#8, 0#8, 42#8] ∧
    decryptLwe [1#8, 1#8] [0#8, 0#8, 42#8] = some 42#8 := by decide

end Verif.Lwe
