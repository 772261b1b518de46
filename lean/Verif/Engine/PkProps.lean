import Verif.Engine.VecLemmas
import Verif.Lwe.Props
/-
C47: encryption with a public key.
-/
set_option linter.unusedSectionVars false
namespace Verif.Engine
open Verif.Random Verif.Lwe
variable {w : Nat}

/-- The sum of the `e i` selected by the choice bits: those with `choice[i] = 1`. -/
def chosenSum (choice : List (BitVec w)) (e : Nat → BitVec w) : BitVec w :=
  ((List.range choice.length).map fun i => if choice.getD i 0 = 1 then e i else 0).sum

theorem addChosen_phase {s : List (BitVec w)} : ∀ (choice : List (BitVec w)) (m : Nat)
    (C : Nat → List (BitVec w)) (out : List (BitVec w)), choice.length = m → Fits s out →
    (∀ i, i < m → Fits s (C i)) →
    Fits s (addChosen out choice ((List.range m).map C)) ∧
    phase s (addChosen out choice ((List.range m).map C)) =
      phase s out + chosenSum choice fun i => phase s (C i) := by
  intro choice
  induction choice with
  | nil =>
    intro m C out h ho _
    simp only [List.length_nil] at h
    subst h
    exact ⟨ho, by simp [addChosen, chosenSum]⟩
  | cons c cs ih =>
    intro m C out h ho hC
    obtain ⟨m, rfl⟩ : ∃ k, m = k + 1 := ⟨cs.length, by rw [← h]; rfl⟩
    simp only [List.length_cons, Nat.add_right_cancel_iff] at h
    rw [List.range_succ_eq_map]
    simp only [List.map_cons, List.map_map, addChosen]
    have hs : chosenSum (c :: cs) (fun i => phase s (C i)) =
        (if c = 1 then phase s (C 0) else 0) + chosenSum cs fun i => phase s (C (i + 1)) := by
      simp only [chosenSum, List.length_cons, List.range_succ_eq_map, List.map_cons, List.map_map,
        List.sum_cons, List.getD_cons_zero]
      rfl
    rw [hs]
    have f0 : Fits s (C 0) := hC 0 (by omega)
    have fo : Fits s (if c = 1 then updateWithAdd out (C 0) else out) := by
      split
      · exact fits_zipUpdate _ ho
      · exact ho
    obtain ⟨h1, h2⟩ := ih m (C ∘ Nat.succ) _ h fo (fun i hi => hC (i + 1) (by omega))
    refine ⟨h1, ?_⟩
    rw [h2]
    by_cases hc : c = 1
    · rw [if_pos hc, if_pos hc, phase_add ho f0, add_assoc]
      rfl
    · rw [if_neg hc, if_neg hc, zero_add]
      rfl

/-- C47, for any list of ciphertexts used as a public key: the encryption decrypts to the message plus
the sum of the decryptions of the chosen ciphertexts. -/
theorem C47_any_key (pk : LweVec (BitVec w)) (s out : List (BitVec w)) (m : Nat) (msg : BitVec w)
    (g : Src) (hp : pk.Shape s.length m) (ho : Fits s out) :
    (∀ choice g', rep m (uniformBinary w) g = some (choice, g') →
      ∃ r, publicEncrypt pk out msg g = .ok (r, g') ∧ Fits s r ∧
        decryptLwe s r = some (msg + chosenSum choice fun i => phase s (pk.get i))) ∧
    (rep m (uniformBinary w) g = none → publicEncrypt pk out msg g = .panic) := by
  have hd : ¬ (pk.dim ≠ lweDim out) := by
    rw [hp.dim, lweDim, ho]
    simp
  obtain ⟨o, h1, h2, h3, _⟩ := (C15_trivial s out msg ho).1
  have h4 : phase s o = msg := by
    rw [decryptLwe_eq h2] at h3
    exact Option.some.inj h3
  refine ⟨?_, ?_⟩
  · intro choice g' hr
    have hl := rep_length _ _ _ _ _ hr
    obtain ⟨f, h⟩ := addChosen_phase choice m pk.get o hl h2
      (fun i hi => by rw [Fits, hp.get_length hi])
    refine ⟨addChosen o choice pk.cts, ?_, ?_, ?_⟩
    · rw [publicEncrypt, if_neg hd, h1, hp.count]
      simp only [hr]
    · rw [hp.cts]
      exact f
    · rw [hp.cts, decryptLwe_eq f, h, h4]
  · intro hr
    rw [publicEncrypt, if_neg hd, h1, hp.count]
    simp only [hr]

/-- C47. A generated public key consists of `count` encryptions of zero whose errors `es` are the noises
drawn during the generation, and an encryption with that public key, of any message, into any output of
the right dimension, decrypts to the message plus the sum of the errors of the chosen encryptions of
zero. The choice is the `count` bits drawn by the secret generator of the encryption. -/
theorem C47_public_key (f : GaussianFn w) (s : List (BitVec w)) (count : Nat) (ge ge' : EncGen)
    (pk : LweVec (BitVec w)) (hgen : generatePublicKey f s count ge = .ok (pk, ge')) :
    0 < count ∧ pk.Shape s.length count ∧
    ∃ es : List (BitVec w), es.length = count ∧
      rep count (randomNoise f) ge.noise = some (es, ge'.noise) ∧
      (∀ i, i < count → decryptLwe s (pk.get i) = some (es.getD i 0)) ∧
      ∀ (out : List (BitVec w)) (msg : BitVec w) (g g' : Src) (choice : List (BitVec w)),
        Fits s out → rep count (uniformBinary w) g = some (choice, g') →
        ∃ r, publicEncrypt pk out msg g = .ok (r, g') ∧
          decryptLwe s r = some (msg + chosenSum choice fun i => es.getD i 0) := by
  rw [generatePublicKey] at hgen
  by_cases h0 : count = 0
  · rw [if_pos h0] at hgen; cases hgen
  rw [if_neg h0] at hgen
  cases hz : zeroEncryptVec f s count ge with
  | none => rw [hz] at hgen; cases hgen
  | some r =>
    rw [hz] at hgen
    simp only [Res.ok.injEq] at hgen
    subst hgen
    rw [zeroEncryptVec] at hz
    split at hz
    · cases hz
    · rename_i d g1 he
      simp only [Option.some.injEq, Prod.mk.injEq] at hz
      obtain ⟨rfl, rfl⟩ := hz
      obtain ⟨es, e1, e2, e3⟩ := encryptLweList_block (by simp [mul_comm]) he
      simp only [List.length_replicate] at e1 e2 e3
      have hsh : (⟨s.length + 1, d⟩ : LweVec (BitVec w)).Shape s.length count := ⟨rfl, e2⟩
      have hph : ∀ i, i < count →
          phase s ((⟨s.length + 1, d⟩ : LweVec (BitVec w)).get i) = es.getD i 0 := by
        intro i hi
        have := e3 i hi
        rw [show (List.replicate count (0 : BitVec w)).getD i 0 = 0 by
          simp [List.getD_eq_getElem?_getD, hi], zero_add] at this
        exact this
      have hlen := rep_length _ _ _ _ _ e1
      refine ⟨by omega, hsh, es, hlen, e1, ?_, ?_⟩
      · intro i hi
        rw [decryptLwe_eq (by rw [Fits, hsh.get_length hi]), hph i hi]
      · intro out msg g g' choice ho hr
        obtain ⟨r, h1, _, h3⟩ := (C47_any_key _ s out count msg g hsh ho).1 choice g' hr
        refine ⟨r, h1, ?_⟩
        rw [h3]
        congr 2
        rw [chosenSum, chosenSum, rep_length _ _ _ _ _ hr]
        congr 1
        apply List.map_congr_left
        intro i hi
        rw [hph i (List.mem_range.1 hi)]

/-- C47. Encrypting with a public key of another dimension, or generating a key of no encryptions, is
rejected. -/
theorem C47_errors (f : GaussianFn w) (s : List (BitVec w)) (g : EncGen) (pk : LweVec (BitVec w))
    (n m : Nat) (hp : pk.Shape n m) (out : List (BitVec w)) (msg : BitVec w) (gs : Src) (no : Nat)
    (ho : out.length = no + 1) (hne : n ≠ no) :
    generatePublicKey f s 0 g = .err .nullPublicKeyZeroEncryptionCount ∧
    publicEncrypt pk out msg gs = .err .lweDimensionMismatch := by
  refine ⟨by rw [generatePublicKey, if_pos rfl], ?_⟩
  rw [publicEncrypt, if_pos]
  rw [hp.dim, lweDim, ho]
  simpa using hne

/-- Bytes for the examples: `0, 1, 2, …`. -/
def exSrc (n : Nat) : Src := { table := fun i => BitVec.ofNat 8 i, pos := 0, bound := n }

/-- A public key of two encryptions; the bits drawn are `0, 1`, so the second one is added. -/
example : (publicEncrypt (⟨2, [5, 6, 7, 9]⟩ : LweVec (BitVec 32)) [1, 1] 100 (exSrc 5)) =
    .ok ([7, 109], (match rep 2 (uniformBinary 32) (exSrc 5) with
      | some (_, g) => g
      | none => exSrc 5)) := by rfl

example : (rep 2 (uniformBinary 32) (exSrc 5)).map (·.1) = some [0, 1] := by rfl

/-- Generation and encryption: three encryptions of zero, each with error 3, of which the second is
chosen. -/
example :
    let f : GaussianFn 16 := { accept := fun _ _ => true, value := fun _ _ => (3#16, 4#16) }
    let g : EncGen := { mask := ⟨fun p => BitVec.ofNat 8 (p * p), 1, 1000⟩, noise := ⟨fun _ => 1#8, 1, 1000⟩ }
    (match generatePublicKey f [1#16, 1#16] 3 g with
      | .ok (pk, _) => (match publicEncrypt pk [9, 9, 9] 100#16 (exSrc 5) with
        | .ok (ct, _) => decryptLwe [1#16, 1#16] ct
        | _ => none)
      | _ => none) = some 103#16 := by decide +kernel

end Verif.Engine
