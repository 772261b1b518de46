import Verif.Circuit.Lookup
/-
C62: a program of engine calls on ciphertexts computes, on the messages, the program on integers.
-/
namespace Verif.Circuit
open Verif Verif.Poly Verif.Pbs

set_option linter.unusedSectionVars false

variable {w : Nat}

theorem reg_of_bound {key : List (BitVec w)} {delta : Int} {regs : List (List (BitVec w))} {ms bs : List Int}
    (h : AllHold key delta regs ms bs) {i : Nat} {b : Int} (hb : bs[i]? = some b) :
    ∃ ct, regs[i]? = some ct ∧ Holds key delta ct (ms.getD i 0) b := by
  obtain ⟨h1, h2, h3⟩ := h
  obtain ⟨hi, -⟩ := List.getElem?_eq_some_iff.1 hb
  have r := List.getElem?_eq_getElem (show i < regs.length by omega)
  have m := List.getElem?_eq_getElem (show i < ms.length by omega)
  refine ⟨_, r, ?_⟩
  rw [List.getD_eq_getElem?_getD, m]
  exact h3 i _ _ _ r m hb

theorem allHold_set {key : List (BitVec w)} {delta : Int} {regs : List (List (BitVec w))} {ms bs : List Int}
    (h : AllHold key delta regs ms bs) {ct : List (BitVec w)} {m b : Int} (hc : Holds key delta ct m b) (i : Nat) :
    AllHold key delta (regs.set i ct) (ms.set i m) (bs.set i b) := by
  obtain ⟨h1, h2, h3⟩ := h
  refine ⟨by simpa using h1, by simpa using h2, fun j c m' b' e1 e2 e3 => ?_⟩
  by_cases hj : i = j
  · subst hj
    have hl : i < regs.length := by simpa using (List.getElem?_eq_some_iff.1 e1).1
    rw [List.getElem?_set_self (by omega)] at e1 e2 e3
    cases e1; cases e2; cases e3
    exact hc
  · rw [List.getElem?_set_ne hj] at e1 e2 e3
    exact h3 j c m' b' e1 e2 e3

/-- The value of an instruction. -/
theorem value_spec (S : Server w) (small big : List (BitVec w)) (B E : Int) (Bk : Nat)
    (hS : Serves S small big B E Bk) (p k : Nat) (hk : k ≤ w) (hp : 2 * p = 2 ^ (w - k))
    (regs : List (List (BitVec w))) (ms bs : List Int) (h : AllHold big (2 ^ k) regs ms bs) (i : Instr) (b : Int)
    (hb : noiseValue (2 ^ k) (ksBound S Bk) (switchBound S small) (pbsBound S B E) bs i = some b) :
    ∃ r, value S p (2 ^ k) regs i = some r ∧ Holds big (2 ^ k) r (clearValue p ms i) b := by
  cases i with
  | add d a c =>
    simp only [noiseValue, Option.bind_eq_bind, Option.bind_eq_some_iff] at hb
    obtain ⟨_, hd, x, hx, y, hy, hb⟩ := hb
    cases hb
    obtain ⟨o, o1, o2, -⟩ := reg_of_bound h hd
    obtain ⟨u, u1, u2, e, ue, up⟩ := reg_of_bound h hx
    obtain ⟨v, v1, v2, f, vf, vp⟩ := reg_of_bound h hy
    obtain ⟨r, r1, r2, r3⟩ := Lwe.C13_discard_add big o u v o2 u2 v2
    refine ⟨r, by simp only [value, o1, u1, v1, Option.bind_eq_bind, Option.bind_some, r1, ofRes], r2, e + f, ?_, ?_⟩
    · exact le_trans (abs_add_le _ _) (add_le_add ue vf)
    · rw [r3, up, vp, clearValue]; push_cast; ring
  | addInto d a =>
    simp only [noiseValue, Option.bind_eq_bind, Option.bind_eq_some_iff] at hb
    obtain ⟨x, hx, y, hy, hb⟩ := hb
    cases hb
    obtain ⟨u, u1, u2, e, ue, up⟩ := reg_of_bound h hx
    obtain ⟨v, v1, v2, f, vf, vp⟩ := reg_of_bound h hy
    obtain ⟨r, r1, r2, r3⟩ := Lwe.C13_fuse_add big u v u2 v2
    refine ⟨r, by simp only [value, u1, v1, Option.bind_eq_bind, Option.bind_some, r1, ofRes], r2, e + f, ?_, ?_⟩
    · exact le_trans (abs_add_le _ _) (add_le_add ue vf)
    · rw [r3, up, vp, clearValue]; push_cast; ring
  | sub d a c =>
    simp only [noiseValue, Option.bind_eq_bind, Option.bind_eq_some_iff] at hb
    obtain ⟨_, hd, x, hx, y, hy, hb⟩ := hb
    cases hb
    obtain ⟨o, o1, o2, -⟩ := reg_of_bound h hd
    obtain ⟨u, u1, u2, e, ue, up⟩ := reg_of_bound h hx
    obtain ⟨v, v1, v2, f, vf, vp⟩ := reg_of_bound h hy
    obtain ⟨r, r1, r2, r3⟩ := Lwe.C13_discard_sub big o u v o2 u2 v2
    refine ⟨r, by simp only [value, o1, u1, v1, Option.bind_eq_bind, Option.bind_some, r1, ofRes], r2, e - f, ?_, ?_⟩
    · exact le_trans (abs_sub _ _) (add_le_add ue vf)
    · rw [r3, up, vp, clearValue]; push_cast; ring
  | subInto d a =>
    simp only [noiseValue, Option.bind_eq_bind, Option.bind_eq_some_iff] at hb
    obtain ⟨x, hx, y, hy, hb⟩ := hb
    cases hb
    obtain ⟨u, u1, u2, e, ue, up⟩ := reg_of_bound h hx
    obtain ⟨v, v1, v2, f, vf, vp⟩ := reg_of_bound h hy
    obtain ⟨r, r1, r2, r3⟩ := Lwe.C13_fuse_sub big u v u2 v2
    refine ⟨r, by simp only [value, u1, v1, Option.bind_eq_bind, Option.bind_some, r1, ofRes], r2, e - f, ?_, ?_⟩
    · exact le_trans (abs_sub _ _) (add_le_add ue vf)
    · rw [r3, up, vp, clearValue]; push_cast; ring
  | neg d a =>
    simp only [noiseValue, Option.bind_eq_bind, Option.bind_eq_some_iff] at hb
    obtain ⟨_, hd, hx⟩ := hb
    obtain ⟨o, o1, o2, -⟩ := reg_of_bound h hd
    obtain ⟨u, u1, u2, e, ue, up⟩ := reg_of_bound h hx
    obtain ⟨r, r1, r2, r3⟩ := Lwe.C13_discard_opp big o u o2 u2
    refine ⟨r, by simp only [value, o1, u1, Option.bind_eq_bind, Option.bind_some, r1, ofRes], r2, -e, ?_, ?_⟩
    · rw [abs_neg]; exact ue
    · rw [r3, up, clearValue]; push_cast; ring
  | negInto d =>
    obtain ⟨u, u1, u2, e, ue, up⟩ := reg_of_bound h hb
    obtain ⟨r, r1, r2, r3⟩ := Lwe.C13_fuse_opp big u u2
    refine ⟨r, by simp only [value, u1, Option.bind_eq_bind, Option.bind_some, r1, ofRes], r2, -e, ?_, ?_⟩
    · rw [abs_neg]; exact ue
    · rw [r3, up, clearValue]; push_cast; ring
  | mul d a c =>
    simp only [noiseValue, Option.bind_eq_bind, Option.bind_eq_some_iff] at hb
    obtain ⟨_, hd, x, hx, hb⟩ := hb
    cases hb
    obtain ⟨o, o1, o2, -⟩ := reg_of_bound h hd
    obtain ⟨u, u1, u2, e, ue, up⟩ := reg_of_bound h hx
    obtain ⟨r, r1, r2, r3⟩ := Lwe.C13_discard_mul_cleartext big o u (c : BitVec w) o2 u2
    refine ⟨r, by simp only [value, o1, u1, Option.bind_eq_bind, Option.bind_some, r1, ofRes], r2, e * c, ?_, ?_⟩
    · rw [abs_mul]; exact mul_le_mul_of_nonneg_right ue (abs_nonneg _)
    · rw [r3, up, clearValue]; push_cast; ring
  | mulInto d c =>
    simp only [noiseValue, Option.bind_eq_bind, Option.bind_eq_some_iff] at hb
    obtain ⟨x, hx, hb⟩ := hb
    cases hb
    obtain ⟨u, u1, u2, e, ue, up⟩ := reg_of_bound h hx
    obtain ⟨r, r1, r2, r3⟩ := Lwe.C13_fuse_mul_cleartext big u (c : BitVec w) u2
    refine ⟨r, by simp only [value, u1, Option.bind_eq_bind, Option.bind_some, r1, ofRes], r2, e * c, ?_, ?_⟩
    · rw [abs_mul]; exact mul_le_mul_of_nonneg_right ue (abs_nonneg _)
    · rw [r3, up, clearValue]; push_cast; ring
  | addPlain d a m =>
    simp only [noiseValue, Option.bind_eq_bind, Option.bind_eq_some_iff] at hb
    obtain ⟨_, hd, hx⟩ := hb
    obtain ⟨o, o1, o2, -⟩ := reg_of_bound h hd
    obtain ⟨u, u1, u2, e, ue, up⟩ := reg_of_bound h hx
    obtain ⟨r, r1, r2, r3⟩ := Lwe.C13_discard_add_plaintext big o u ((2 ^ k * m : Int) : BitVec w) o2 u2
    refine ⟨r, by simp only [value, o1, u1, Option.bind_eq_bind, Option.bind_some, r1, ofRes], r2, e, ue, ?_⟩
    rw [r3, up, clearValue]; push_cast; ring
  | addPlainInto d m =>
    obtain ⟨u, u1, u2, e, ue, up⟩ := reg_of_bound h hb
    obtain ⟨r, r1, r2, r3⟩ := Lwe.C13_fuse_add_plaintext big u ((2 ^ k * m : Int) : BitVec w) u2
    refine ⟨r, by simp only [value, u1, Option.bind_eq_bind, Option.bind_some, r1, ofRes], r2, e, ue, ?_⟩
    rw [r3, up, clearValue]; push_cast; ring
  | subPlain d a m =>
    simp only [noiseValue, Option.bind_eq_bind, Option.bind_eq_some_iff] at hb
    obtain ⟨_, hd, hx⟩ := hb
    obtain ⟨o, o1, o2, -⟩ := reg_of_bound h hd
    obtain ⟨u, u1, u2, e, ue, up⟩ := reg_of_bound h hx
    obtain ⟨r, r1, r2, r3⟩ := Lwe.C13_discard_sub_plaintext big o u ((2 ^ k * m : Int) : BitVec w) o2 u2
    refine ⟨r, by simp only [value, o1, u1, Option.bind_eq_bind, Option.bind_some, r1, ofRes], r2, e, ue, ?_⟩
    rw [r3, up, clearValue]; push_cast; ring
  | subPlainInto d m =>
    obtain ⟨u, u1, u2, e, ue, up⟩ := reg_of_bound h hb
    obtain ⟨r, r1, r2, r3⟩ := Lwe.C13_fuse_sub_plaintext big u ((2 ^ k * m : Int) : BitVec w) u2
    refine ⟨r, by simp only [value, u1, Option.bind_eq_bind, Option.bind_some, r1, ofRes], r2, e, ue, ?_⟩
    rw [r3, up, clearValue]; push_cast; ring
  | trivial d m =>
    simp only [noiseValue, Option.bind_eq_bind, Option.bind_eq_some_iff] at hb
    obtain ⟨_, hd, hx⟩ := hb
    cases hx
    obtain ⟨o, o1, o2, -⟩ := reg_of_bound h hd
    obtain ⟨-, r, r1, r2, r3, -⟩ := Lwe.C15_trivial big o ((2 ^ k * m : Int) : BitVec w) o2
    rw [Lwe.decryptLwe_eq r2] at r3
    refine ⟨r, ?_, r2, 0, by simp, ?_⟩
    · have hbl : big.length = S.k * S.N := hS.bigLen
      rw [value, ← hbl]; exact r1
    · rw [Option.some.inj r3, clearValue, add_zero]
  | lookup d a t =>
    simp only [noiseValue, Option.bind_eq_bind, Option.bind_eq_some_iff] at hb
    obtain ⟨_, hd, x, hx, hb⟩ := hb
    split at hb
    · rename_i hlt
      cases hb
      obtain ⟨o, o1, o2, -⟩ := reg_of_bound h hd
      obtain ⟨u, u1, u2⟩ := reg_of_bound h hx
      obtain ⟨sm, r, r1, r2, r3⟩ := lookup_spec S small big B E Bk hS p k hk hp t o u _ x o2 u2 hlt
      exact ⟨r, by simp only [value, o1, u1, Option.bind_eq_bind, Option.bind_some, r1, r2], r3⟩
    · cases hb

/-- C62. A program on ciphertexts: if the registers hold the messages `ms` with noise at most `bs`, and the noise
bounds allow every lookup, the program runs to its end and its registers hold the messages that the program computes
on integers, with noise at most the computed bounds. The length of the program, the number of registers, the messages,
the tables and the keys are arbitrary. -/
theorem C62_circuit (S : Server w) (small big : List (BitVec w)) (B E : Int) (Bk : Nat)
    (hS : Serves S small big B E Bk) (p k : Nat) (hk : k ≤ w) (hp : 2 * p = 2 ^ (w - k)) (prog : List Instr) :
    ∀ (regs : List (List (BitVec w))) (ms bs bs' : List Int), AllHold big (2 ^ k) regs ms bs →
      noise (2 ^ k) (ksBound S Bk) (switchBound S small) (pbsBound S B E) prog bs = some bs' →
      ∃ regs', exec S p (2 ^ k) prog regs = some regs' ∧ AllHold big (2 ^ k) regs' (clear p prog ms) bs' := by
  induction prog with
  | nil =>
    intro regs ms bs bs' h hn
    cases hn
    exact ⟨regs, rfl, h⟩
  | cons i is ih =>
    intro regs ms bs bs' h hn
    rw [noise, Option.bind_eq_some_iff] at hn
    obtain ⟨x, hx, hn⟩ := hn
    obtain ⟨r, r1, r2⟩ := value_spec S small big B E Bk hS p k hk hp regs ms bs h i x hx
    obtain ⟨regs', e1, e2⟩ := ih _ _ _ _ (allHold_set h r2 i.dest) hn
    exact ⟨regs', by rw [exec, step, r1]; exact e1, e2⟩

/-- Decoding removes a noise of less than half a step. -/
theorem decode_spec {k : Nat} (hk : k ≤ w) (m e : Int) (he : 2 * |e| < 2 ^ k) :
    (decode k ((2 ^ k * m + e : Int) : BitVec w) : Int) = m % 2 ^ (w - k) := by
  obtain ⟨q, hq⟩ := (BV.intCast_eq_iff (w := w) (((((2 ^ k * m + e : Int) : BitVec w)).toNat : Nat) : Int) (2 ^ k * m + e)).1
    (by rw [Int.cast_natCast, BV.natCast_toNat])
  rw [decode]
  generalize (((2 ^ k * m + e : Int) : BitVec w)).toNat = x at *
  push_cast
  rw [hq]
  have h2 : (2 : Int) ^ w = 2 ^ k * 2 ^ (w - k) := by rw [← pow_add]; congr 1; omega
  have hD : (0 : Int) < 2 ^ k := by positivity
  have hE : (2 ^ k : Int) = 1 ∨ (2 ^ k : Int) = 2 * (2 ^ k / 2) := by
    rcases Nat.eq_zero_or_pos k with rfl | h
    · left; rfl
    · right
      obtain ⟨j, rfl⟩ : ∃ j, k = j + 1 := ⟨k - 1, by omega⟩
      rw [pow_succ]; omega
  have he' := abs_lt.1 (show |e| < (2 ^ k : Int) - |e| by omega)
  have habs := abs_le.1 (le_refl |e|)
  rw [h2]
  generalize (2 : Int) ^ k = D at *
  have hh : 0 ≤ e + D / 2 ∧ e + D / 2 < D := by omega
  have h3 : D * m + e + D * 2 ^ (w - k) * q + D / 2 = (e + D / 2) + (m + 2 ^ (w - k) * q) * D := by ring
  rw [h3, Int.add_mul_ediv_right _ _ hD.ne', Int.ediv_eq_zero_of_lt hh.1 hh.2, zero_add, Int.add_mul_emod_self_left]

/-- C62, the result: a register whose noise is less than half a step decrypts and decodes to its message, modulo the
number `2 p` of messages. -/
theorem C62_decode {k : Nat} (hk : k ≤ w) (key ct : List (BitVec w)) (m b : Int) (h : Holds key (2 ^ k) ct m b)
    (hb : 2 * b < 2 ^ k) :
    ∃ x, Lwe.decryptLwe key ct = some x ∧ (decode k x : Int) = m % 2 ^ (w - k) := by
  obtain ⟨hf, e, he, hp⟩ := h
  exact ⟨_, Lwe.decryptLwe_eq hf, by rw [hp]; exact decode_spec hk m e (by omega)⟩

end Verif.Circuit
