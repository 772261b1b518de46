import Verif.Ntt.Glwe
import Verif.Ntt.Shipped
import Verif.Circuit.Lookup
/-
C114: a GLWE ciphertext taken to the NTT domain and back.

Vocabulary: `forwardModSwitch` is related to evaluations by C34 (`C34_forward`); `Valid`, `Suits`, `Tables.Reduced`
(Verif.Ntt.Spec); `CtFits`, `KeyFits` (Verif.Glwe.Spec); `KeyBound` (Verif.Pbs.Spec).
-/
set_option linter.unusedSectionVars false
namespace Verif.Ntt
open Verif.Poly Verif.BV Verif.Glwe Verif.Pbs

variable {W w : Nat}

theorem transformPolys_eq {α β : Type} (f : List β → List α) (N : Nat) : ∀ (os : List (List α)) (ps : List (List β)),
    (∀ o ∈ os, o.length = N) → (∀ p ∈ ps, p.length = N) → os.length = ps.length →
    transformPolys f os ps = some (ps.map f)
  | [], [], _, _, _ => rfl
  | [], _ :: _, _, _, h => by simp at h
  | _ :: _, [], _, _, h => by simp at h
  | o :: os, p :: ps, ho, hp, h => by
    have ih := transformPolys_eq f N os ps (fun x hx => ho x (List.mem_cons_of_mem _ hx))
      (fun x hx => hp x (List.mem_cons_of_mem _ hx)) (by simpa using h)
    rw [transformPolys, if_pos (by rw [ho o (List.mem_cons_self ..), hp p (List.mem_cons_self ..)]), ih]
    rfl

theorem chunksN_len {α : Type} {N : Nat} (hN : 0 < N) (m : Nat) (l : List α) (h : l.length = m * N) :
    ∀ p ∈ chunks N l, p.length = N := by
  rw [chunks_eq N hN m l h]
  intro p hp
  obtain ⟨i, hi, rfl⟩ := List.mem_map.1 hp
  exact block_length N l i (by rw [h]; exact Nat.mul_le_mul_right N (List.mem_range.1 hi))

/-- Two polynomials of different sizes at the head: the call panics. -/
theorem transformPolys_none {α β : Type} (f : List β → List α) (M N : Nat) (hMN : M ≠ N) (os : List (List α))
    (ps : List (List β)) (ho : ∀ o ∈ os, o.length = M) (hp : ∀ p ∈ ps, p.length = N) (h1 : os ≠ []) (h2 : ps ≠ []) :
    transformPolys f os ps = none := by
  cases os with
  | nil => exact absurd rfl h1
  | cons o os =>
    cases ps with
    | nil => exact absurd rfl h2
    | cons p ps =>
      rw [transformPolys, if_neg (by rw [ho o (List.mem_cons_self ..), hp p (List.mem_cons_self ..)]; exact hMN)]

theorem switched_reduced {q : BitVec W} (hq : Suits w q) (x : BitVec w) :
    Reduced q ((ModQ.new 0 q).modSwitchInto x) := by
  have h := into_rel hq (ModQ.new 0 q) rfl x
  exact ⟨h.mod, h.red⟩

/-- There and back on one polynomial: each coefficient goes through the two modulus switches only. -/
theorem backward_forward_switch {q : BitVec W} (hq : Suits w q) {T : Tables (ModQ W)} (hT : T.Reduced q)
    (hv : Valid (T.toZ q)) (p : List (BitVec w)) (hp : p.length = 2 ^ T.logSize) :
    backwardModSwitch w q T (forwardModSwitch q T p) =
      p.map fun x => ((ModQ.new 0 q).modSwitchInto x).modSwitchFrom w := by
  have h := C34_round_trip q hq.toRoom T hT hv (p.map fun x => (ModQ.new 0 q).modSwitchInto x) (by simpa using hp)
    (by
      intro a ha
      obtain ⟨x, _, rfl⟩ := List.mem_map.1 ha
      exact switched_reduced hq x)
  have h' := congrArg (List.map fun a : ModQ W => a.modSwitchFrom w) h
  rw [List.map_map] at h'
  rw [← Function.comp_def (fun a : ModQ W => a.modSwitchFrom w), ← h', backward, List.map_map]
  rfl

/-- C114: with containers of the right sizes, neither call panics whatever the containers hold; the polynomials of the
NTT ciphertext are the transforms of the switched polynomials, in order; and the result coming back is the
ciphertext with each coefficient switched there and back. -/
theorem C114_values (q : BitVec W) (hq : Suits w q) (T : Tables (ModQ W)) (hT : T.Reduced q) (hv : Valid (T.toZ q))
    (k : Nat) (ct outB : List (BitVec w)) (outN : List (ModQ W))
    (hc : CtFits (2 ^ T.logSize) k ct) (hN : outN.length = (k + 1) * 2 ^ T.logSize)
    (hB : outB.length = (k + 1) * 2 ^ T.logSize) :
    ∃ n, fillForward q T (2 ^ T.logSize) (2 ^ T.logSize) outN ct = some n ∧
      n.length = (k + 1) * 2 ^ T.logSize ∧
      (∀ i, i ≤ k → block (2 ^ T.logSize) n i =
        forward (modqOps q) T ((block (2 ^ T.logSize) ct i).map fun x => (ModQ.new 0 q).modSwitchInto x)) ∧
      fillBackward q T (2 ^ T.logSize) (2 ^ T.logSize) outB n =
        some (ct.map fun x => ((ModQ.new 0 q).modSwitchInto x).modSwitchFrom w) := by
  have hpos : 0 < 2 ^ T.logSize := by positivity
  have hcl : ct.length = (k + 1) * 2 ^ T.logSize := hc
  have c1 := chunks_len (2 ^ T.logSize) hpos (k + 1) ct hcl
  have hfl : ∀ p : List (BitVec w), p.length = 2 ^ T.logSize → (forwardModSwitch q T p).length = 2 ^ T.logSize := by
    intro p hp
    refine (C34_forward q hq.toRoom T hT hv (p.map fun x => (ModQ.new 0 q).modSwitchInto x) (by simpa using hp) ?_).1
    intro a ha
    obtain ⟨x, _, rfl⟩ := List.mem_map.1 ha
    exact switched_reduced hq x
  have hfl' : ∀ p ∈ (chunks (2 ^ T.logSize) ct).map (forwardModSwitch q T), p.length = 2 ^ T.logSize := by
    intro p hp
    obtain ⟨r, hr, rfl⟩ := List.mem_map.1 hp
    exact hfl r (c1 r hr)
  have hlen := chunks_length (2 ^ T.logSize) hpos (k + 1) ct hcl
  refine ⟨((chunks (2 ^ T.logSize) ct).map (forwardModSwitch q T)).flatten, ?_, ?_, ?_, ?_⟩
  · rw [fillForward, transformPolys_eq _ (2 ^ T.logSize) _ _
      (chunksN_len hpos (k + 1) outN hN) c1 (by rw [chunks_length _ hpos _ _ hN, hlen])]
    rfl
  · rw [flatten_length_uniform _ _ hfl', List.length_map, hlen]
  · intro i hi
    apply block_flatten _ hpos _ hfl' i
    rw [chunks_eq _ hpos (k + 1) ct hcl, List.map_map, List.getElem?_map, List.getElem?_range (by omega)]
    rfl
  · rw [fillBackward, chunks_of_flatten _ hpos _ hfl', transformPolys_eq _ (2 ^ T.logSize) _ _
      (chunks_len _ hpos (k + 1) outB hB) hfl'
      (by rw [chunks_length _ hpos _ _ hB, List.length_map, hlen]), List.map_map]
    have : (chunks (2 ^ T.logSize) ct).map (backwardModSwitch w q T ∘ forwardModSwitch q T) =
        (chunks (2 ^ T.logSize) ct).map (List.map fun x => ((ModQ.new 0 q).modSwitchInto x).modSwitchFrom w) :=
      List.map_congr_left fun p hp => backward_forward_switch hq hT hv p (c1 p hp)
    rw [this]
    simp only [Option.map_some]
    rw [← List.map_flatten, chunks_flatten _ hpos]

/-- C114: a polynomial size of the NTT ciphertext other than that of the GLWE ciphertext panics, in both directions. -/
theorem C114_panics (q : BitVec W) (T : Tables (ModQ W)) (M N k m : Nat) (hM : 0 < M) (hN : 0 < N) (hMN : M ≠ N)
    (ct : List (BitVec w)) (n : List (ModQ W)) (hc : CtFits N k ct) (hn : n.length = (m + 1) * M) :
    fillForward q T M N n ct = none ∧ fillBackward q T M N ct n = none := by
  have hcl : ct.length = (k + 1) * N := hc
  have l1 := chunks_length N hN (k + 1) ct hcl
  have l2 := chunks_length M hM (m + 1) n hn
  have n1 : chunks N ct ≠ [] := by intro h; rw [h] at l1; simp at l1
  have n2 : chunks M n ≠ [] := by intro h; rw [h] at l2; simp at l2
  have a1 := chunksN_len hN (k + 1) ct hcl
  have a2 := chunksN_len hM (m + 1) n hn
  rw [fillForward, fillBackward, transformPolys_none _ M N hMN _ _ a2 a1 n2 n1,
    transformPolys_none _ N M hMN.symm _ _ a1 a2 n1 n2]
  exact ⟨rfl, rfl⟩

/-- Changing each coefficient of a ciphertext a little changes its phase a little. -/
theorem map_error (N k : Nat) (hN : 0 < N) (g : BitVec w → BitVec w) (B S : Int)
    (hg : ∀ x, |(g x - x).toInt| ≤ B) (key ct : List (BitVec w)) (hk : KeyFits N k key) (hS : KeyBound S key)
    (hc : CtFits N k ct) :
    ∃ ρ : Rq (BitVec w) N, Small N ((k * (N * S) + 1) * B) ρ ∧
      glwePhase N k key (ct.map g) = glwePhase N k key ct + ρ := by
  refine ⟨toRq N (block N (ct.map fun x => g x - x) k) - ∑ i ∈ Finset.range k,
    toRq N (block N (ct.map fun x => g x - x) i) * toRq N (block N key i),
    small_key_comb hN hk hS (fun p => toRq N (block N (ct.map fun x => g x - x) p)) ?_, ?_⟩
  · intro p hp
    apply small_toRq N _ (block_len N _ p _ (by simpa using (show ct.length = _ from hc)) (by omega))
    intro c hc'
    obtain ⟨x, _, rfl⟩ := mem_block_map hc'
    exact hg x
  · have hb : ∀ p, p < k + 1 → toRq N (block N (ct.map g) p) =
        toRq N (block N ct p) + toRq N (block N (ct.map fun x => g x - x) p) := by
      intro p hp
      have hl := block_len N _ p ct hc hp
      have hl2 := block_len N _ p (ct.map fun x => g x - x)
        (by simpa using (show ct.length = _ from hc)) hp
      rw [← toRq_add N _ _ (by rw [hl, hl2]), Poly.add, zipUpdate_eq_zipWith _ _ _ (by rw [hl, hl2])]
      congr 1
      simp only [block, ← List.map_drop, ← List.map_take]
      generalize List.take N (List.drop (p * N) ct) = y
      rw [List.zipWith_map_right, List.zipWith_self]
      exact List.map_congr_left fun x _ => by ring
    rw [glwePhase, glwePhase, hb k (by omega)]
    have : ∀ i ∈ Finset.range k, toRq N (block N (ct.map g) i) * toRq N (block N key i) =
        toRq N (block N ct i) * toRq N (block N key i) +
        toRq N (block N (ct.map fun x => g x - x) i) * toRq N (block N key i) := by
      intro i hi
      rw [hb i (by have := Finset.mem_range.1 hi; omega)]; ring
    rw [Finset.sum_congr rfl this, Finset.sum_add_distrib]
    ring

/-- C114: the ciphertext that comes back has every coefficient within 1 of the ciphertext that went, for a modulus above
`2^w / 3`; and under any key whose coefficients are at most `S` in absolute value, every coefficient
it decrypts to is within `k·N·S + 1` of what the original decrypts to. -/
theorem C114_decrypt (q : BitVec W) (hq : Suits w q) (h3 : 2 ^ w < 3 * q.toNat) (T : Tables (ModQ W))
    (hT : T.Reduced q) (hv : Valid (T.toZ q)) (k : Nat) (S : Int)
    (key ct outB out : List (BitVec w)) (outN : List (ModQ W))
    (hk : KeyFits (2 ^ T.logSize) k key) (hS : KeyBound S key)
    (hc : CtFits (2 ^ T.logSize) k ct) (hN : outN.length = (k + 1) * 2 ^ T.logSize)
    (hB : outB.length = (k + 1) * 2 ^ T.logSize) (ho : out.length = 2 ^ T.logSize) :
    ∃ n r, fillForward q T (2 ^ T.logSize) (2 ^ T.logSize) outN ct = some n ∧
      fillBackward q T (2 ^ T.logSize) (2 ^ T.logSize) outB n = some r ∧
      CtFits (2 ^ T.logSize) k r ∧
      (∀ i, i < ct.length → |(r.getD i 0 - ct.getD i 0).toInt| ≤ 1) ∧
      ∀ i, i < 2 ^ T.logSize → |((decryptGlwe (2 ^ T.logSize) key out r).getD i 0 -
        (decryptGlwe (2 ^ T.logSize) key out ct).getD i 0).toInt| ≤ k * (2 ^ T.logSize * S) + 1 := by
  have hpos : 0 < 2 ^ T.logSize := by positivity
  obtain ⟨n, h1, _, _, h4⟩ := C114_values q hq T hT hv k ct outB outN hc hN hB
  have hg : ∀ x : BitVec w, |(((ModQ.new 0 q).modSwitchInto x).modSwitchFrom w - x).toInt| ≤ 1 := by
    intro x
    obtain ⟨δ, d1, d2⟩ := C38_round_trip_one q hq h3 (ModQ.new 0 q) rfl x
    rw [d1, show x + (δ : BitVec w) - x = (δ : BitVec w) by ring]
    exact (abs_toInt_le δ).trans d2
  refine ⟨n, _, h1, h4, by rw [CtFits, List.length_map]; exact hc, ?_, ?_⟩
  · intro i hi
    rw [List.getD_eq_getElem?_getD, List.getD_eq_getElem?_getD, List.getElem?_map, List.getElem?_eq_getElem hi]
    exact hg _
  · intro i hi
    have hr : CtFits (2 ^ T.logSize) k (ct.map fun x => ((ModQ.new 0 q).modSwitchInto x).modSwitchFrom w) := by
      rw [CtFits, List.length_map]; exact hc
    obtain ⟨ρ, r1, r2⟩ := map_error (2 ^ T.logSize) k hpos
      (fun x => ((ModQ.new 0 q).modSwitchInto x).modSwitchFrom w) 1 S hg key ct hk hS hc
    obtain ⟨l1, e1⟩ := decryptGlwe_spec (2 ^ T.logSize) k hpos key out _ hk hr ho
    obtain ⟨l2, e2⟩ := decryptGlwe_spec (2 ^ T.logSize) k hpos key out ct hk hc ho
    generalize decryptGlwe (2 ^ T.logSize) key out
      (ct.map fun x => ((ModQ.new 0 q).modSwitchInto x).modSwitchFrom w) = D at l1 e1 ⊢
    generalize decryptGlwe (2 ^ T.logSize) key out ct = D' at l2 e2 ⊢
    have hs : toRq (2 ^ T.logSize) (Poly.sub D D') = ρ := by
      rw [toRq_sub _ _ _ (by rw [l1, l2]), e1, e2, r2]; ring
    have hl : (Poly.sub D D').length = 2 ^ T.logSize := by rw [Poly.sub, zipUpdate_length, l1]
    have := r1.coeff hpos _ hl hs i
    rw [Poly.sub, zipUpdate_getD _ _ _ i 0 0 (by omega) (by omega)] at this
    push_cast at this
    linarith

/-- C114: a second round trip changes nothing more: whatever the containers hold, a ciphertext that has come back
once comes back unchanged. -/
theorem C114_second (q : BitVec W) (hq : Suits w q) (T : Tables (ModQ W)) (hT : T.Reduced q) (hv : Valid (T.toZ q))
    (k : Nat) (ct outB outB' : List (BitVec w)) (outN outN' n : List (ModQ W)) (r : List (BitVec w))
    (hc : CtFits (2 ^ T.logSize) k ct) (hN : outN.length = (k + 1) * 2 ^ T.logSize)
    (hB : outB.length = (k + 1) * 2 ^ T.logSize) (hN' : outN'.length = (k + 1) * 2 ^ T.logSize)
    (hB' : outB'.length = (k + 1) * 2 ^ T.logSize)
    (h1 : fillForward q T (2 ^ T.logSize) (2 ^ T.logSize) outN ct = some n)
    (h2 : fillBackward q T (2 ^ T.logSize) (2 ^ T.logSize) outB n = some r) :
    ∃ n', fillForward q T (2 ^ T.logSize) (2 ^ T.logSize) outN' r = some n' ∧
      fillBackward q T (2 ^ T.logSize) (2 ^ T.logSize) outB' n' = some r := by
  obtain ⟨m, a1, _, _, a4⟩ := C114_values q hq T hT hv k ct outB outN hc hN hB
  rw [h1] at a1
  obtain rfl := Option.some.inj a1
  rw [h2] at a4
  obtain rfl := Option.some.inj a4
  have hr : CtFits (2 ^ T.logSize) k (ct.map fun x => ((ModQ.new 0 q).modSwitchInto x).modSwitchFrom w) := by
    rw [CtFits, List.length_map]; exact hc
  obtain ⟨m', b1, _, _, b4⟩ := C114_values q hq T hT hv k _ outB' outN' hr hN' hB'
  refine ⟨m', b1, ?_⟩
  rw [b4, List.map_map]
  congr 1
  refine List.map_congr_left fun x _ => ?_
  have := C38_round_trip_q q hq _ (ModQ.new 0 q) (switched_reduced hq x) rfl
  rw [Function.comp_apply, this]

/-- C114 for the shipped tables and binary keys: the coefficients decrypted after the round trip are within `k·N + 1`
of the original ones, for both precisions and all the shipped polynomial sizes. -/
theorem C114_shipped :
    (∀ P ∈ shipped32, ∀ (k : Nat) (key ct outB out : List (BitVec 32)) (outN : List (ModQ 64)),
      Lwe.BinaryKey key → KeyFits (2 ^ P.log) k key → CtFits (2 ^ P.log) k ct → outN.length = (k + 1) * 2 ^ P.log →
      outB.length = (k + 1) * 2 ^ P.log → out.length = 2 ^ P.log →
      ∃ n r, fillForward MOD_32 (P.tables 64) (2 ^ P.log) (2 ^ P.log) outN ct = some n ∧
        fillBackward MOD_32 (P.tables 64) (2 ^ P.log) (2 ^ P.log) outB n = some r ∧
        ∀ i, i < 2 ^ P.log → |((decryptGlwe (2 ^ P.log) key out r).getD i 0 -
          (decryptGlwe (2 ^ P.log) key out ct).getD i 0).toInt| ≤ k * 2 ^ P.log + 1) ∧
    (∀ P ∈ shipped64, ∀ (k : Nat) (key ct outB out : List (BitVec 64)) (outN : List (ModQ 128)),
      Lwe.BinaryKey key → KeyFits (2 ^ P.log) k key → CtFits (2 ^ P.log) k ct → outN.length = (k + 1) * 2 ^ P.log →
      outB.length = (k + 1) * 2 ^ P.log → out.length = 2 ^ P.log →
      ∃ n r, fillForward MOD_64 (P.tables 128) (2 ^ P.log) (2 ^ P.log) outN ct = some n ∧
        fillBackward MOD_64 (P.tables 128) (2 ^ P.log) (2 ^ P.log) outB n = some r ∧
        ∀ i, i < 2 ^ P.log → |((decryptGlwe (2 ^ P.log) key out r).getD i 0 -
          (decryptGlwe (2 ^ P.log) key out ct).getD i 0).toInt| ≤ k * 2 ^ P.log + 1) := by
  constructor
  · intro P hP k key ct outB out outN hb hk hc hN hB ho
    obtain ⟨h1, h2, h3⟩ := shipped32_valid P hP
    obtain ⟨n, r, g1, g2, _, _, g5⟩ := C114_decrypt MOD_32 h1 (by decide +kernel) (P.tables 64) h2 h3 k 1 key ct outB out outN hk
      (Circuit.keyBound_of_binary (by omega) hb) hc hN hB ho
    refine ⟨n, r, g1, g2, fun i hi => ?_⟩
    have := g5 i hi
    rw [mul_one] at this
    exact this
  · intro P hP k key ct outB out outN hb hk hc hN hB ho
    obtain ⟨h1, h2, h3⟩ := shipped64_valid P hP
    obtain ⟨n, r, g1, g2, _, _, g5⟩ := C114_decrypt MOD_64 h1 (by decide +kernel) (P.tables 128) h2 h3 k 1 key ct outB out outN hk
      (Circuit.keyBound_of_binary (by omega) hb) hc hN hB ho
    refine ⟨n, r, g1, g2, fun i hi => ?_⟩
    have := g5 i hi
    rw [mul_one] at this
    exact this

/-- The hypotheses of `C114_decrypt` are met by the tables of size 4 modulo 17 and words of 5 bits. -/
example : Suits 5 17#16 ∧ 2 ^ 5 < 3 * (17#16).toNat ∧ (small.tables 16).Reduced 17#16 ∧
    Valid ((small.tables 16).toZ 17#16) ∧ CtFits (2 ^ (small.tables 16).logSize) 1 [1#5, 2, 3, 4, 5, 6, 7, 31] ∧
    KeyFits (2 ^ (small.tables 16).logSize) 1 [1#5, 0, 1, 1] ∧ KeyBound 1 [1#5, 0, 1, 1] := by
  have h : TableCorrect 5 small := check_sound (by decide)
  obtain ⟨h1, h2, h3⟩ := h.valid (W := 16) (by decide) (by decide)
  exact ⟨h1, by decide, h2, h3, rfl, rfl, by unfold KeyBound; decide⟩

/-- Two polynomials go to the NTT domain and come back, in containers that hold leftovers: each coefficient changes by at most
one. A NTT container of another polynomial size panics. -/
example : ((fillForward 17#16 (small.tables 16) 4 4 (List.replicate 8 (ModQ.new 3 17#16))
      [1#5, 2, 3, 4, 5, 6, 7, 31]).bind fun n =>
        fillBackward 17#16 (small.tables 16) 4 4 (List.replicate 8 9#5) n) = some [2, 2, 4, 4, 6, 6, 8, 30] ∧
    (fillForward 17#16 (small.tables 16) 2 4 (List.replicate 8 (ModQ.new 3 17#16))
      [1#5, 2, 3, 4, 5, 6, 7, 31]) = none := by decide +kernel

/-! ### Ciphertexts with different numbers of polynomials -/

theorem transformPolys_zip {α β : Type} (f : List β → List α) (N : Nat) : ∀ (os : List (List α)) (ps : List (List β)),
    (∀ o ∈ os, o.length = N) → (∀ p ∈ ps, p.length = N) →
    transformPolys f os ps = some ((ps.take os.length).map f ++ os.drop ps.length)
  | [], [], _, _ => rfl
  | [], _ :: _, _, _ => by simp [transformPolys]
  | _ :: _, [], _, _ => by simp [transformPolys]
  | o :: os, p :: ps, ho, hp => by
    have ih := transformPolys_zip f N os ps (fun x hx => ho x (List.mem_cons_of_mem _ hx))
      (fun x hx => hp x (List.mem_cons_of_mem _ hx))
    rw [transformPolys, if_pos (by rw [ho o (List.mem_cons_self ..), hp p (List.mem_cons_self ..)]), ih]
    rfl

theorem transformPolys_blocks {α β : Type} (f : List β → List α) (N : Nat) (hN : 0 < N) (a c : Nat) (out : List α)
    (inp : List β) (ho : out.length = a * N) (hi : inp.length = c * N) (hf : ∀ p, (f p).length = p.length) :
    ∃ r, (transformPolys f (chunks N out) (chunks N inp)).map List.flatten = some r ∧ r.length = a * N ∧
      ∀ i, i < a → block N r i = if i < c then f (block N inp i) else block N out i := by
  have h1 := chunksN_len hN a out ho
  have h2 := chunksN_len hN c inp hi
  have l1 := chunks_length N hN a out ho
  have l2 := chunks_length N hN c inp hi
  rw [transformPolys_zip f N _ _ h1 h2, l1, l2]
  have hu : ∀ x ∈ ((chunks N inp).take a).map f ++ (chunks N out).drop c, x.length = N := by
    intro x hx
    rcases List.mem_append.1 hx with hx | hx
    · obtain ⟨p, hp, rfl⟩ := List.mem_map.1 hx
      rw [hf, h2 p (List.mem_of_mem_take hp)]
    · exact h1 x (List.mem_of_mem_drop hx)
  refine ⟨_, rfl, ?_, fun i hia => block_flatten N hN _ hu i _ ?_⟩
  · rw [flatten_length_uniform _ _ hu]
    simp only [List.length_append, List.length_map, List.length_take, List.length_drop, l1, l2]
    congr 1; omega
  · rw [chunks_eq N hN c inp hi, chunks_eq N hN a out ho]
    by_cases hic : i < c
    · rw [if_pos hic, List.getElem?_append_left (by simp; omega)]
      simp [hia, hic]
    · rw [if_neg hic, List.getElem?_append_right (by simp; omega)]
      have e : min a c = c := by omega
      simp only [List.length_map, List.length_take, List.length_range, e, List.getElem?_drop]
      rw [show c + (i - c) = i by omega]
      simp [hia]

theorem foldl_length {α β : Type} (f : List α → β → List α) (hf : ∀ b x, (f b x).length = b.length) (l : List β) :
    ∀ b, (l.foldl f b).length = b.length := by
  induction l with
  | nil => intro b; rfl
  | cons x l ih => intro b; rw [List.foldl_cons, ih, hf]

theorem forwardBuf_length {α : Type} (o : Ops α) (roots : List α) (log : Nat) (buf : List α) :
    (forwardBuf o roots log buf).length = buf.length := by
  apply foldl_length
  intro b x
  apply foldl_length
  intro b x
  apply foldl_length
  intro b x
  simp [fwdButterfly]

theorem backwardBuf_length {α : Type} (o : Ops α) (roots : List α) (log : Nat) (buf : List α) :
    (backwardBuf o roots log buf).length = buf.length := by
  apply foldl_length
  intro b x
  apply foldl_length
  intro b x
  apply foldl_length
  intro b x
  simp [bwdButterfly]

/-- C114: ciphertexts with the same polynomial size but different numbers of polynomials are accepted, in both directions
and in all builds: as many polynomials as both hold are transformed, and the other polynomials of the output keep their
content. The polynomial size is that of the tables, which hold as many roots as the transform reads. -/
theorem C114_counts (q : BitVec W) (T : Tables (ModQ W)) (_hv : Valid (T.toZ q)) (N a c : Nat) (hT : N = 2 ^ T.logSize)
    (n : List (ModQ W))
    (ct : List (BitVec w)) (hn : n.length = a * N) (hc : ct.length = c * N) :
    (∃ r, fillForward q T N N n ct = some r ∧ r.length = a * N ∧
      ∀ i, i < a → block N r i = if i < c then
        forward (modqOps q) T ((block N ct i).map fun x => (ModQ.new 0 q).modSwitchInto x) else block N n i) ∧
    (∃ r, fillBackward q T N N ct n = some r ∧ r.length = c * N ∧
      ∀ i, i < c → block N r i = if i < a then
        (backward (modqOps q) T (block N n i)).map fun x => x.modSwitchFrom w else block N ct i) := by
  have hN : 0 < N := by rw [hT]; positivity
  constructor
  · exact transformPolys_blocks (forwardModSwitch q T) N hN a c n ct hn hc fun p => by
      rw [forwardModSwitch, forwardBuf_length, List.length_map]
  · obtain ⟨r, h1, h2, h3⟩ := transformPolys_blocks (backwardModSwitch w q T) N hN c a ct n hc hn fun p => by
      rw [backwardModSwitch, List.length_map, backwardBuf_length]
    refine ⟨r, h1, h2, fun i hi => ?_⟩
    rw [h3 i hi]
    split
    · rw [backward, List.map_map]; rfl
    · rfl

example : Valid ((small.tables 16).toZ 17#16) ∧ 4 = 2 ^ (small.tables 16).logSize ∧
    (List.replicate 8 (ModQ.new 3 17#16)).length = 2 * 4 ∧ (List.replicate 12 9#5).length = 3 * 4 := by
  have h : TableCorrect 5 small := check_sound (by decide)
  exact ⟨(h.valid (W := 16) (by decide) (by decide)).2.2, rfl, rfl, rfl⟩

end Verif.Ntt
