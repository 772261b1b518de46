import Verif.Pbs.Props2
/-
The hypotheses of C27-C31 are satisfiable: noiseless GGSWs and bootstrap keys exist for all parameters, and
the keys generated by the code meet `BskEnc` when the noise is bounded.
-/
set_option linter.unusedSectionVars false
namespace Verif.Pbs
open Verif.Poly Verif.Glwe Verif.Decomp Verif.Random

variable {w : Nat}

/-- The gadget matrix times `m`: polynomial `p` of row `r` of level `j + 1` is `m * 2^(w - b(j+1))` if
`p = r`, zero otherwise. -/
def gadgetGgsw (N k b l : Nat) (m : BitVec w) : List (BitVec w) :=
  ((List.range l).map fun j => ((List.range (k + 1)).map fun r => ((List.range (k + 1)).map fun p =>
    if p = r then (List.replicate N (0 : BitVec w)).set 0 (m * 2 ^ (w - b * (j + 1)))
    else List.replicate N (0 : BitVec w)).flatten).flatten).flatten

theorem gadget_enc (N k b l : Nat) (hN : 0 < N) (key : List (BitVec w)) (m : BitVec w) :
    GgswEnc N k b l key (gadgetGgsw N k b l m) (AdjoinRoot.of _ m) (fun _ _ => 0) := by
  have hkN : 0 < (k + 1) * N := Nat.mul_pos (by omega) hN
  have len0 : ∀ j r, ∀ x ∈ (List.range (k + 1)).map (fun p =>
      if p = r then (List.replicate N (0 : BitVec w)).set 0 (m * 2 ^ (w - b * (j + 1)))
      else List.replicate N (0 : BitVec w)), x.length = N := by
    intro j r x hx
    obtain ⟨p, _, rfl⟩ := List.mem_map.1 hx
    split <;> simp
  have len1 : ∀ j, ∀ x ∈ (List.range (k + 1)).map (fun r => ((List.range (k + 1)).map fun p =>
      if p = r then (List.replicate N (0 : BitVec w)).set 0 (m * 2 ^ (w - b * (j + 1)))
      else List.replicate N (0 : BitVec w)).flatten), x.length = (k + 1) * N := by
    intro j x hx
    obtain ⟨r, _, rfl⟩ := List.mem_map.1 hx
    rw [flatten_length_uniform N _ (len0 j r)]; simp
  have len2 : ∀ x ∈ (List.range l).map (fun j => ((List.range (k + 1)).map fun r => ((List.range (k + 1)).map fun p =>
      if p = r then (List.replicate N (0 : BitVec w)).set 0 (m * 2 ^ (w - b * (j + 1)))
      else List.replicate N (0 : BitVec w)).flatten).flatten), x.length = (k + 1) * ((k + 1) * N) := by
    intro x hx
    obtain ⟨j, _, rfl⟩ := List.mem_map.1 hx
    rw [flatten_length_uniform _ _ (len1 j)]; simp
  refine ⟨by rw [gadgetGgsw, flatten_length_uniform _ _ len2]; simp, fun j hj r hr => ?_⟩
  rw [ggswRow, gadgetGgsw, block_flatten _ (Nat.mul_pos (by omega) hkN) _ len2 j _ (by
      rw [List.getElem?_map, List.getElem?_range hj]; rfl),
    block_flatten _ hkN _ (len1 j) r _ (by rw [List.getElem?_map, List.getElem?_range (by omega)]; rfl), phase_eq,
    add_zero]
  have hb : ∀ p ∈ Finset.range (k + 1), rowFactor N k key p * toRq N (block N (((List.range (k + 1)).map fun p =>
      if p = r then (List.replicate N (0 : BitVec w)).set 0 (m * 2 ^ (w - b * (j + 1)))
      else List.replicate N (0 : BitVec w)).flatten) p) =
      if p = r then rowFactor N k key p * (AdjoinRoot.of _ m * 2 ^ (w - b * (j + 1))) else 0 := by
    intro p hp
    rw [block_flatten N hN _ (len0 j r) p _ (by
      rw [List.getElem?_map, List.getElem?_range (Finset.mem_range.1 hp)]; rfl)]
    beta_reduce
    by_cases hpr : p = r
    · rw [if_pos hpr, if_pos hpr]
      congr 1
      have : (List.replicate N (0 : BitVec w)).set 0 (m * 2 ^ (w - b * (j + 1))) =
          (List.replicate N (0 : BitVec w)).modify 0 (fun a => a + m * 2 ^ (w - b * (j + 1))) := by
        apply List.ext_getElem (by simp)
        intro i h1 h2
        simp only [List.getElem_set, List.getElem_modify, List.getElem_replicate, zero_add]
      rw [this, toRq_modify N _ _ _ (by simpa using hN), toRq_zero, zero_add, pow_zero, mul_one, map_mul, map_pow]
      congr 2
    · rw [if_neg hpr, if_neg hpr, toRq_zero, mul_zero]
  rw [Finset.sum_congr rfl hb, Finset.sum_ite_eq' _ r, if_pos (Finset.mem_range.2 (by omega))]
  ring

/-- A noiseless bootstrap key exists for all keys and parameters. -/
theorem gadget_bsk (N k b l : Nat) (hN : 0 < N) (hl : 0 < l) (lweKey key : List (BitVec w)) :
    BskEnc N k b l lweKey key (lweKey.map (gadgetGgsw N k b l)).flatten 0 := by
  have hlen : ∀ x ∈ lweKey.map (gadgetGgsw N k b l), x.length = l * ((k + 1) * ((k + 1) * N)) := by
    intro x hx
    obtain ⟨m, _, rfl⟩ := List.mem_map.1 hx
    exact (gadget_enc N k b l hN key m).1
  refine ⟨?_, fun i hi => ⟨fun _ _ => 0, fun j r _ _ => small_zero N 0 le_rfl, ?_⟩⟩
  · rw [flatten_length_uniform _ _ hlen]; simp
  · rw [block_flatten _ (by positivity) _ hlen i (gadgetGgsw N k b l (lweKey.getD i 0))]
    · exact gadget_enc N k b l hN key _
    · rw [List.getElem?_map, List.getD_eq_getElem?_getD, List.getElem?_eq_getElem hi]; rfl

theorem exists_bsk (N k b l : Nat) (hN : 0 < N) (hl : 0 < l) (lweKey key : List (BitVec w)) :
    ∃ bsk, BskEnc N k b l lweKey key bsk 0 := ⟨_, gadget_bsk N k b l hN hl lweKey key⟩

/-- The torus values of a noise source are at most `E`. -/
def NoiseBound (f : GaussianFn w) (E : Int) : Prop :=
  ∀ u v, f.accept u v = true → |(f.value u v).1.toInt| ≤ E ∧ |(f.value u v).2.toInt| ≤ E

theorem gaussianLoop_bound (f : GaussianFn w) (E : Int) (hf : NoiseBound f E) : ∀ (fuel : Nat) (g g' : Src)
    (p : BitVec w × BitVec w), gaussianLoop f fuel g = some (p, g') → |p.1.toInt| ≤ E ∧ |p.2.toInt| ≤ E := by
  intro fuel
  induction fuel with
  | zero => intro g g' p h; simp [gaussianLoop] at h
  | succ n ih =>
    intro g g' p h
    rw [gaussianLoop] at h
    split at h
    · cases h
    · split at h
      · cases h
      · split at h
        · rename_i ha
          cases h
          exact hf _ _ ha
        · exact ih _ _ _ h

theorem rep_forall {A : Type} (P : A → Prop) (s : Samp A) (hs : ∀ g g' a, s g = some (a, g') → P a) :
    ∀ (n : Nat) (g g' : Src) (as : List A), rep n s g = some (as, g') → ∀ a ∈ as, P a := by
  intro n
  induction n with
  | zero => intro g g' as h; simp [rep] at h; rw [h.1]; simp
  | succ n ih =>
    intro g g' as h
    rw [rep] at h
    split at h
    · cases h
    · rename_i ha
      split at h
      · cases h
      · rename_i hr
        cases h
        intro a hm
        rcases List.mem_cons.1 hm with rfl | hm
        · exact hs _ _ _ ha
        · exact ih _ _ _ hr a hm

theorem noiseTensor_bound (f : GaussianFn w) (E : Int) (hf : NoiseBound f E) (n : Nat) (g g' : Src)
    (e : List (BitVec w)) (h : randomNoiseTensor f n g = some (e, g')) : ∀ x ∈ e, |x.toInt| ≤ E := by
  rw [randomNoiseTensor] at h
  split at h
  · cases h
  · rename_i ps g2 hr
    cases h
    intro x hx
    have hx := List.mem_of_mem_take hx
    obtain ⟨p, hp, hx⟩ := List.mem_flatMap.1 hx
    have := rep_forall (fun p : BitVec w × BitVec w => |p.1.toInt| ≤ E ∧ |p.2.toInt| ≤ E) (gaussianPair f)
      (fun g g' a ha => gaussianLoop_bound f E hf _ _ _ _ ha) _ _ _ _ hr p hp
    simp only [List.mem_cons, List.not_mem_nil, or_false] at hx
    rcases hx with rfl | rfl
    · exact this.1
    · exact this.2

/-- C31 (with C26): a bootstrap key generated by the code, from a noise of at most `E`, is a bootstrap key in
the sense of `BskEnc`, so that C30 and C31 apply to it. -/
theorem C31_generated_key (f : GaussianFn w) (N k b level : Nat) (hN : 0 < N) (hL : 0 < level) (E : Int)
    (hf : NoiseBound f E)
    (lweKey key out bsk : List (BitVec w)) (g g' : EncGen) (sched : List Nat)
    (levelSched : Nat → List Nat) (rowSched : Nat → Nat → List Nat) (hk : KeyFits N k key)
    (ho : out.length = lweKey.length * (level * ((k + 1) * ((k + 1) * N))))
    (hs : BskSchedules lweKey.length level k sched levelSched rowSched)
    (h : parFillBsk f lweKey key N k b level sched levelSched rowSched out g = some (bsk, g')) :
    BskEnc N k b level lweKey key bsk E := by
  obtain ⟨h1, h2⟩ := C26_bootstrap_key f N k b level hN hL lweKey key out bsk g g' sched levelSched rowSched hk ho hs h
  refine ⟨h1, fun i hi => ?_⟩
  obtain ⟨e, e1, e2⟩ := h2 i hi
  refine ⟨_, fun j r hj hr => ?_, e2⟩
  obtain ⟨l1, gi, gn, _, _, l2⟩ := e1 j r hj hr
  exact small_toRq N _ l1 E (noiseTensor_bound f E hf N gi gn _ l2)

/-- The hypotheses of C27, C28, C30 and C31 hold for concrete non-trivial parameters: `N = 4`, dimension 1,
base `2^3`, 2 levels, 8-bit words. -/
example : ∃ ggsw : List (BitVec 8), GgswEnc 4 1 3 2 [1, 0, 1, 1] ggsw (AdjoinRoot.of _ ((1 : Int) : BitVec 8)) (fun _ _ => 0) ∧
    ValidParams 8 3 2 ∧ KeyFits 4 1 [1#8, 0, 1, 1] ∧ KeyBound 1 [1#8, 0, 1, 1] ∧
    CtFits 4 1 [1#8, 2, 3, 4, 5, 6, 7, 8] ∧ (exactTransform 8 4).Accurate 4 (2 * (1 + 1)) 4 0 ∧ (2 : Int) ^ (3 - 1) ≤ 4 := by
  refine ⟨_, gadget_enc 4 1 3 2 (by decide) _ _, ⟨by decide, by decide, by decide⟩, rfl, ?_, rfl,
    exact_accurate _ _ (by decide) _, by decide⟩
  intro x hx
  simp only [List.mem_cons, List.not_mem_nil, or_false] at hx
  rcases hx with rfl | rfl | rfl | rfl <;> decide

/-- A bootstrap of the key `[1, 0, 1]`, computed with the exact transform: input phase `64 = 2 * 32` (a
quarter of the torus, position 2 of the table), accumulator `[12, 20, 28, 40]`. -/
example :
    bootstrap (cmuxFft (exactTransform 8 4) 4 1 3 2) 4 2 (List.replicate 5 0#8) [32#8, 96, 160, 0]
      [0, 0, 0, 0, 12, 20, 28, 40] (bskGgsws (exactTransform 8 4) 4 1 2
        (([1, 0, 1] : List (BitVec 8)).map (gadgetGgsw 4 1 3 2)).flatten) = some [0, 0, 0, 0, 28#8] := by
  decide +kernel

example : ∃ bsk : List (BitVec 8), BskEnc 4 1 3 2 [1, 0, 1] [1, 0, 1, 1] bsk 0 ∧ Lwe.BinaryKey [1#8, 0, 1] ∧
    Lwe.Fits [1#8, 0, 1] [32#8, 96, 160, 0] ∧ IsSwitchedPhase 2 [1#8, 0, 1] [32#8, 96, 160, 0] 2 := by
  obtain ⟨bsk, h⟩ := exists_bsk 4 1 3 2 (by decide) (by decide) [1#8, 0, 1] [1, 0, 1, 1]
  refine ⟨bsk, h, ?_, rfl, by rw [IsSwitchedPhase]; decide +kernel⟩
  intro x hx
  simp only [List.mem_cons, List.not_mem_nil, or_false] at hx
  rcases hx with rfl | rfl | rfl <;> simp

end Verif.Pbs
