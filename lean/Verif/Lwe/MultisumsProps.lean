import Verif.Lwe.Multisums
import Verif.Lwe.Props
import Verif.Util.ParChunks
/-
C120: weighted sums over a list of LWE ciphertexts, and decryption of a list.

Vocabulary: `phase`, `Fits` (Verif.Lwe.Spec); `block n l i` is the i-th group of `n` words of `l`.
-/
namespace Verif.Lwe
open Verif.Csprng (Build)

variable {R : Type} [CommRing R]

theorem aux_spec (s : List R) : ∀ (os is wss : List (List R)) (bs : List R), (∀ o ∈ os, Fits s o) →
    (∀ i ∈ is, ∀ c ∈ chunks (s.length + 1) i, Fits s c) →
    ∃ r, fillWithMultisumsAux (s.length + 1) os is wss bs = some r ∧ r.length = os.length ∧ (∀ x ∈ r, Fits s x) ∧
      (∀ (i : Nat) (o inp ws : List R) (b : R), os[i]? = some o → is[i]? = some inp → wss[i]? = some ws → bs[i]? = some b →
        ∃ x, r[i]? = some x ∧ fillWithMultisumWithBias o (chunks (s.length + 1) inp) ws b = some x) ∧
      ∀ i : Nat, (is[i]? = none ∨ wss[i]? = none ∨ bs[i]? = none) → r[i]? = os[i]? := by
  intro os
  induction os with
  | nil =>
    intro is wss bs _ _
    refine ⟨[], by unfold fillWithMultisumsAux; rfl, rfl, by simp, ?_, fun _ _ => rfl⟩
    intro i o inp ws b h
    simp at h
  | cons o os ih =>
    intro is wss bs ho hi
    have stop : fillWithMultisumsAux (s.length + 1) (o :: os) is wss bs = some (o :: os) →
        (is = [] ∨ wss = [] ∨ bs = []) → _ := fun e hs =>
      (⟨o :: os, e, rfl, ho, fun i o' inp ws b _ h2 h3 h4 => by
        rcases hs with rfl | rfl | rfl <;> simp_all, fun _ _ => rfl⟩ :
        ∃ r, fillWithMultisumsAux (s.length + 1) (o :: os) is wss bs = some r ∧ r.length = (o :: os).length ∧
          (∀ x ∈ r, Fits s x) ∧
          (∀ (i : Nat) (o' inp ws : List R) (b : R), (o :: os)[i]? = some o' → is[i]? = some inp → wss[i]? = some ws →
            bs[i]? = some b →
            ∃ x, r[i]? = some x ∧ fillWithMultisumWithBias o' (chunks (s.length + 1) inp) ws b = some x) ∧
          ∀ i : Nat, (is[i]? = none ∨ wss[i]? = none ∨ bs[i]? = none) → r[i]? = (o :: os)[i]?)
    cases is with
    | nil => exact stop (by unfold fillWithMultisumsAux; rfl) (.inl rfl)
    | cons inp is =>
      cases wss with
      | nil => exact stop (by unfold fillWithMultisumsAux; rfl) (.inr (.inl rfl))
      | cons ws wss =>
        cases bs with
        | nil => exact stop (by unfold fillWithMultisumsAux; rfl) (.inr (.inr rfl))
        | cons b bs =>
          obtain ⟨x, x1, x2, -⟩ := fillWithMultisum_phase (s := s) (out := o) (chunks (s.length + 1) inp) ws b
            (ho o (by simp)) (hi inp (by simp))
          obtain ⟨r, r1, r2, r3, r4, r5⟩ := ih is wss bs (fun y hy => ho y (by simp [hy])) (fun y hy => hi y (by simp [hy]))
          refine ⟨x :: r, ?_, by simp [r2], ?_, ?_, ?_⟩
          · rw [fillWithMultisumsAux, x1, r1]
          · intro y hy
            rcases List.mem_cons.1 hy with rfl | hy
            · exact x2
            · exact r3 y hy
          · intro i o' inp' ws' b' h1 h2 h3 h4
            cases i with
            | zero =>
              simp only [List.getElem?_cons_zero, Option.some.injEq] at h1 h2 h3 h4
              subst h1 h2 h3 h4
              exact ⟨x, rfl, x1⟩
            | succ i => exact r4 i o' inp' ws' b' (by simpa using h1) (by simpa using h2) (by simpa using h3) (by simpa using h4)
          · intro i h
            cases i with
            | zero => simp at h
            | succ i => simpa using r5 i (by simpa using h)

theorem chunks_get' {α : Type} (n : Nat) (hn : 0 < n) (m : Nat) (l : List α) (h : l.length = m * n) (i : Nat) :
    (chunks n l)[i]? = if i < m then some (block n l i) else none := by
  rw [chunks_eq n hn m l h, List.getElem?_map]
  split
  · rw [List.getElem?_range ‹_›]; rfl
  · rename_i h'
    rw [List.getElem?_eq_none (by rw [List.length_range]; omega)]; rfl

/-- C120, the part that holds: `n` output ciphertexts, `c` inputs and `c` weights for each. When the call is accepted, output `i`
gains `bias_i + Σ_j w_{i,j} · phase(c_{i,j})` on top of what it held, as long as there are weights and a bias for it; the
other outputs keep their content. In release builds it is accepted for all numbers of weights (in groups of `c`) and biases; in debug builds
when these numbers divide the number of inputs. With zeros in the output, and all weights and biases, it is the documented
sum. Missing: the documented sum for an output with other content, which is false (`C120_violated_content`), and the
report of missing weights or biases, which is false too (`C120_violated_count`). -/
theorem C120_sums_partial (bld : Build) (s out inputs weights biases : List R) (n c m : Nat) (hn : 0 < n) (hc : 0 < c)
    (ho : out.length = n * (s.length + 1)) (hi : inputs.length = n * c * (s.length + 1)) (hw : weights.length = m * c)
    (hb : bld = .release ∨ (0 < m ∧ 0 < biases.length ∧ (n * c) % (m * c) = 0 ∧ (n * c) % biases.length = 0)) :
    ∃ r, multisums bld (s.length + 1) out inputs weights biases = some r ∧ r.length = n * (s.length + 1) ∧
      (∀ i, i < n → i < m → i < biases.length →
        phase s (block (s.length + 1) r i) = phase s (block (s.length + 1) out i) + (biases.getD i 0 +
          ∑ j ∈ Finset.range c, weights.getD (i * c + j) 0 * phase s (block (s.length + 1) inputs (i * c + j)))) ∧
      ∀ i, i < n → (m ≤ i ∨ biases.length ≤ i) → block (s.length + 1) r i = block (s.length + 1) out i := by
  have hp : 0 < s.length + 1 := by omega
  have e1 : out.length / (s.length + 1) = n := by rw [ho, Nat.mul_div_cancel _ hp]
  have e2 : inputs.length / (s.length + 1) = n * c := by rw [hi, Nat.mul_div_cancel _ hp]
  have e3 : n * c / n = c := Nat.mul_div_cancel_left _ hn
  have hi' : inputs.length = n * (c * (s.length + 1)) := by rw [hi, Nat.mul_assoc]
  have hcp : 0 < c * (s.length + 1) := Nat.mul_pos hc hp
  have hblk : ∀ i, i < n → (block (c * (s.length + 1)) inputs i).length = c * (s.length + 1) := fun i h =>
    block_length _ _ _ (by rw [hi']; exact Nat.mul_le_mul_right _ h)
  obtain ⟨r, r1, r2, r3, r4, r5⟩ := aux_spec s (chunks (s.length + 1) out) (chunks (c * (s.length + 1)) inputs)
    (chunks c weights) biases
    (by
      rw [chunks_eq _ hp _ _ ho]
      intro o h
      obtain ⟨i, hm, rfl⟩ := List.mem_map.1 h
      exact block_length _ _ _ (by rw [ho]; exact Nat.mul_le_mul_right _ (List.mem_range.1 hm)))
    (by
      rw [chunks_eq _ hcp _ _ hi']
      intro o h
      obtain ⟨i, hm, rfl⟩ := List.mem_map.1 h
      have hl := hblk i (List.mem_range.1 hm)
      rw [chunks_eq _ hp _ _ hl]
      intro x h
      obtain ⟨j, hm, rfl⟩ := List.mem_map.1 h
      exact block_length _ _ _ (by rw [hl]; exact Nat.mul_le_mul_right _ (List.mem_range.1 hm)))
  rw [chunks_length _ hp _ _ ho] at r2
  have hr : ∀ i x, r[i]? = some x → block (s.length + 1) r.flatten i = x := by
    intro i x h
    have := chunks_of_flatten (s.length + 1) hp r r3
    have hlt : i < n := by rw [← r2]; exact (List.getElem?_eq_some_iff.1 h).1
    rw [← this, chunks_get' _ hp n _ (by rw [flatten_length_uniform (s.length + 1) r r3, r2]), if_pos hlt] at h
    exact Option.some.inj h
  refine ⟨r.flatten, ?_, by rw [flatten_length_uniform (s.length + 1) r r3, r2], ?_, ?_⟩
  · rw [multisums, if_neg (by rw [e1, e2, e3]; omega), if_pos, fillWithMultisumsWithBiases, e1, e2, e3]
    · rw [r1]
      rfl
    · rcases hb with rfl | ⟨h1, h2, h3, h4⟩
      · rfl
      · cases bld
        · simp only [multisumsChecks, e1, e2, e3, decide_eq_true_eq]
          rw [hw]
          refine ⟨by rw [ho, Nat.mul_mod_left], by rw [hi, Nat.mul_mod_left], (Nat.mul_pos h1 hc).ne', h3, by omega, h4,
            Nat.mul_mod_right _ _, ?_, Nat.mul_mod_left _ _⟩
          rw [hi, Nat.mul_assoc, Nat.mul_comm c, ← Nat.mul_assoc, Nat.mul_mod_left]
        · rfl
  · intro i h1 h2 h3
    obtain ⟨x, x1, x2⟩ := r4 i (block (s.length + 1) out i) (block (c * (s.length + 1)) inputs i) (block c weights i)
      (biases[i]) (by rw [chunks_get' _ hp _ _ ho, if_pos h1]) (by rw [chunks_get' _ hcp _ _ hi', if_pos h1])
      (by rw [chunks_get' _ hc _ _ hw, if_pos h2]) (List.getElem?_eq_getElem h3)
    have hwl : (block c weights i).length = c := block_length _ _ _ (by rw [hw]; exact Nat.mul_le_mul_right _ h2)
    have hof : Fits s (block (s.length + 1) out i) := block_length _ _ _ (by rw [ho]; exact Nat.mul_le_mul_right _ h1)
    obtain ⟨y, y1, -, y2⟩ := C14_affine_partial s (block (s.length + 1) out i) (block (c * (s.length + 1)) inputs i)
      (block c weights i) (biases[i]) hof (by rw [hwl, hblk i h1])
    rw [discardAffine, if_neg (by simp only [lweDim]; rw [hof]; simp),
      if_neg (by rw [hwl, hblk i h1, Nat.mul_div_cancel _ hp]; simp), x2] at y1
    have hxy : x = y := by simpa [Res.ofOption] using y1
    rw [hr i x x1, hxy, y2, hwl, show biases.getD i 0 = biases[i] by
      rw [List.getD_eq_getElem?_getD, List.getElem?_eq_getElem h3]; rfl]
    congr 2
    refine Finset.sum_congr rfl fun j hj => ?_
    rw [block_getD c _ _ _ _ (Finset.mem_range.1 hj), block_block _ _ _ _ _ (Finset.mem_range.1 hj)]
  · intro i h1 h2
    have h := r5 i (by
      rcases h2 with h2 | h2
      · exact .inr (.inl (by rw [chunks_get' _ hc _ _ hw, if_neg (by omega)]))
      · exact .inr (.inr (List.getElem?_eq_none h2)))
    rw [chunks_get' _ hp _ _ ho, if_pos h1] at h
    exact hr i _ h

/-- C120 is false for an output that held something: the documented sum is 7, the output holds 107. -/
theorem C120_violated_content : ∃ r, multisums .debug 2 [0#32, 100#32] [0#32, 3#32] [2#32] [1#32] = some r ∧
    phase [1#32] r = 107#32 := ⟨[0#32, 107#32], by decide, by decide⟩

/-- C120: missing weights or biases are not reported, not even in debug builds: with two outputs and the weights and the
bias of the first only, the second is left as it was. -/
theorem C120_violated_count (bld : Build) :
    multisums bld 2 [0#32, 0#32, 9#32, 9#32] [0#32, 3#32, 0#32, 5#32] [2#32] [1#32] = some [0#32, 7#32, 9#32, 9#32] := by
  cases bld <;> decide

/-- C120, panics: in both builds when there is no output ciphertext or fewer inputs than outputs; in debug builds when the
number of weights or of biases does not divide the number of inputs. -/
theorem C120_sums_panics (bld : Build) (size : Nat) (out inputs weights biases : List R) :
    (out.length < size → multisums bld size out inputs weights biases = none) ∧
    (inputs.length / size < out.length / size → multisums bld size out inputs weights biases = none) ∧
    (¬ weights.length ∣ inputs.length / size ∨ ¬ biases.length ∣ inputs.length / size →
      multisums .debug size out inputs weights biases = none) := by
  refine ⟨fun h => ?_, fun h => ?_, fun h => ?_⟩
  · rw [multisums, if_pos (.inr (.inl (Nat.div_eq_of_lt h)))]
  · rw [multisums, if_pos (.inr (.inr (Nat.div_eq_of_lt h)))]
  · rw [multisums]
    split
    · rfl
    · rw [if_neg]
      simp only [multisumsChecks, decide_eq_true_eq]
      rintro ⟨-, -, -, a, -, b, -⟩
      rcases h with h | h
      · exact h (Nat.dvd_of_mod_eq_zero a)
      · exact h (Nat.dvd_of_mod_eq_zero b)

/-- C120, decryption of a list: plaintext `i` is the phase of ciphertext `i`, whatever the output held; when the output is
longer than the list the rest of it is kept. -/
theorem C120_decrypt_list (s out cts : List R) (n : Nat) (hc : cts.length = n * (s.length + 1)) :
    ∃ r, decryptLweList s (s.length + 1) out cts = some r ∧ r.length = out.length ∧
      ∀ i, i < out.length → r.getD i 0 = if i < n then phase s (block (s.length + 1) cts i) else out.getD i 0 := by
  have hp : 0 < s.length + 1 := by omega
  have key : ∀ (cs : List (List R)) (os : List R), (∀ c ∈ cs, Fits s c) →
      ∃ r, decryptLweListAux s cs os = some r ∧ r.length = os.length ∧
        ∀ i, i < os.length → r.getD i 0 = if i < cs.length then phase s (cs.getD i []) else os.getD i 0 := by
    intro cs
    induction cs with
    | nil => intro os _; exact ⟨os, by unfold decryptLweListAux; rfl, rfl, by simp⟩
    | cons c cs ih =>
      intro os hf
      cases os with
      | nil => exact ⟨[], by unfold decryptLweListAux; rfl, rfl, by simp⟩
      | cons o os =>
        obtain ⟨r, r1, r2, r3⟩ := ih os fun x hx => hf x (by simp [hx])
        have hd := decryptLwe_eq (hf c (by simp))
        refine ⟨phase s c :: r, by rw [decryptLweListAux, hd, r1], by simp [r2], ?_⟩
        intro i h
        cases i with
        | zero => simp
        | succ i => simpa using r3 i (by simpa using h)
  obtain ⟨r, r1, r2, r3⟩ := key (chunks (s.length + 1) cts) out (by
    rw [chunks_eq _ hp _ _ hc]
    intro c h
    obtain ⟨i, hm, rfl⟩ := List.mem_map.1 h
    exact block_length _ _ _ (by rw [hc]; exact Nat.mul_le_mul_right _ (List.mem_range.1 hm)))
  refine ⟨r, r1, r2, fun i h => ?_⟩
  rw [r3 i h, chunks_length _ hp _ _ hc]
  split
  · rw [List.getD_eq_getElem?_getD, chunks_get' _ hp _ _ hc, if_pos ‹_›]; rfl
  · rfl

/-- The hypotheses are met: two outputs of dimension 1, two inputs and two weights for each; the phases of the inputs under the
key 1 are 3, 2, 5, 4 and the sums 1 + 2·3 + 1·2 = 9 and 2 + 1·5 + 3·4 = 19. -/
example : multisums .debug 2 [0#8, 0#8, 0#8, 0#8] [1#8, 4#8, 1#8, 3#8, 0#8, 5#8, 2#8, 6#8] [2#8, 1#8, 1#8, 3#8] [1#8, 2#8] =
      some [3#8, 12#8, 6#8, 25#8] ∧
    decryptLweList [1#8] 2 [7#8, 7#8, 7#8] [3#8, 12#8, 6#8, 25#8] = some [9#8, 19#8, 7#8] := by decide

end Verif.Lwe
