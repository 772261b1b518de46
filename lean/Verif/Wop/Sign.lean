import Verif.Wop.Props2
/-
The bootstrap of a sign: the step shared by the bit extraction and the circuit bootstrap.
-/
namespace Verif.Wop
open Verif Verif.Poly Verif.Glwe Verif.Pbs Verif.Decomp

variable {w : Nat}

theorem addBody_spec {s x : List (BitVec w)} (p : BitVec w) (hx : Lwe.Fits s x) :
    Lwe.Fits s (addBody x p) ∧ Lwe.phase s (addBody x p) = Lwe.phase s x + p := by
  obtain ⟨mask, b, rfl, hm⟩ := Lwe.exists_split hx
  have : addBody (mask ++ [b]) p = mask ++ [b + p] := by
    rw [addBody, List.length_append, List.length_singleton, Nat.add_sub_cancel]
    clear hm hx
    induction mask with
    | nil => rfl
    | cons a mask ih => rw [List.cons_append, List.length_cons, List.modify_succ_cons, ih, List.cons_append]
  rw [this]
  refine ⟨by simp [Lwe.Fits, hm], ?_⟩
  rw [Lwe.phase_append s mask _ hm, Lwe.phase_append s mask _ hm]; ring

/-- The lookup of a sign: at every position within `Q` of a phase `β/2 + 1/4 + e`, the constant polynomial
`-alpha` is read as `alpha` if `β` is one, `-alpha` if it is zero. -/
theorem sign_position {N logN : Nat} (hN : N = 2 ^ logN) (hlog : logN + 2 < w) (ph α : BitVec w) (β : Bool)
    (e Q : Int) (hph : ph = (((if β then 2 ^ (w - 1) else 0) + 2 ^ (w - 2) + e : Int) : BitVec w))
    (he : |e| + Q < 2 ^ (w - 2)) (d : Nat) (hd : d < 2 * N)
    (hc : |((d * 2 ^ (w - logN - 1) : Nat) - ph : BitVec w).toInt| ≤ Q) :
    ext N (List.replicate N (0#w - α)) d = if β then α else -α := by
  have hN0 : 0 < N := by rw [hN]; positivity
  generalize hf : ((d * 2 ^ (w - logN - 1) : Nat) - ph : BitVec w).toInt = f at hc
  have h1 : (((d * 2 ^ (w - logN - 1) : Nat) : Int) : BitVec w) =
      (((if β then 2 ^ (w - 1) else 0) + 2 ^ (w - 2) + e + f : Int) : BitVec w) := by
    have h := BV.intCast_toInt ((d * 2 ^ (w - logN - 1) : Nat) - ph : BitVec w)
    rw [hf] at h
    rw [Int.cast_add (_ + _ + _) f, ← hph, h]
    rw [Int.cast_natCast]; ring
  obtain ⟨q, hq⟩ := (BV.intCast_eq_iff _ _).1 h1
  have hstep : N * 2 ^ (w - logN - 1) = 2 ^ (w - 1) := by
    rw [hN, ← pow_add]; congr 1; omega
  have h2 : (2 : Int) ^ w = 4 * 2 ^ (w - 2) := by
    rw [show (4 : Int) = 2 ^ 2 by norm_num, ← pow_add]; congr 1; omega
  have h3 : (2 : Int) ^ (w - 1) = 2 * 2 ^ (w - 2) := by
    rw [← pow_succ']; congr 1; omega
  have hstep' : (N : Int) * 2 ^ (w - logN - 1) = 2 * 2 ^ (w - 2) := by
    rw [← h3]; exact_mod_cast hstep
  have hs0 : (0 : Int) < 2 ^ (w - logN - 1) := by positivity
  have he1 := abs_lt.1 (lt_of_le_of_lt (le_trans (abs_add_le e f) (add_le_add_right hc _)) he)
  push_cast at hq
  rw [h2, h3] at hq
  generalize (2 : Int) ^ (w - 2) = A at *
  generalize (2 : Int) ^ (w - logN - 1) = st at *
  have hd' : (d : Int) * st < 4 * A := by
    have : (d : Int) < 2 * N := by exact_mod_cast hd
    nlinarith
  have hd0 : 0 ≤ (d : Int) * st := by positivity
  have hq0 : q = 0 := by
    rcases lt_trichotomy q 0 with h | h | h
    · exfalso
      have : A * q ≤ -A := by nlinarith
      cases β <;> simp at hq <;> nlinarith
    · exact h
    · exfalso
      have : A ≤ A * q := by nlinarith
      cases β <;> simp at hq <;> nlinarith
  subst hq0
  rw [ext, List.getD_eq_getElem?_getD, List.getElem?_replicate, if_pos (Nat.mod_lt _ hN0), Option.getD_some]
  cases β
  · have : d / N = 0 := by
      apply Nat.div_eq_of_lt
      by_contra hge
      have : (N : Int) ≤ d := by exact_mod_cast not_lt.1 hge
      simp at hq
      nlinarith
    rw [this]; simp
  · have : d / N = 1 := by
      have hge : N ≤ d := by
        by_contra hlt
        have : (d : Int) + 1 ≤ N := by exact_mod_cast not_le.1 hlt
        simp at hq
        nlinarith
      exact Nat.div_eq_of_lt_le (by omega) (by omega)
    rw [this]; simp

/-- What the operations below need from a bootstrap: on an input of phase `β/2 + 1/4 + e` with
`|e| + Q < 1/4`, the sign accumulator of `alpha` gives `alpha` or `-alpha` up to an error `P`. -/
def SignPbs (pbs : List (BitVec w) → List (BitVec w) → List (BitVec w) → Option (List (BitVec w))) (N k : Nat)
    (lweKey key : List (BitVec w)) (Q P : Int) : Prop :=
  ∀ (out c : List (BitVec w)) (α : BitVec w) (β : Bool) (e : Int), out.length = k * N + 1 → Lwe.Fits lweKey c →
    Lwe.phase lweKey c = (((if β then 2 ^ (w - 1) else 0) + 2 ^ (w - 2) + e : Int) : BitVec w) →
    |e| + Q < 2 ^ (w - 2) →
    ∃ r, pbs out c (signAccumulator N k α) = some r ∧ Lwe.Fits key r ∧
      ∃ f : Int, |f| ≤ P ∧ Lwe.phase key r = (if β then α else -α) + (f : BitVec w)

theorem signPbs_of_bsk (T : Transform w) (N k b l logN : Nat) (hNN : N = 2 ^ logN) (hlog : logN + 2 < w)
    (D B S E : Int) (hT : T.Accurate N (l * (k + 1)) D B) (hD : 2 ^ (b - 1) ≤ D) (h : ValidParams w b l)
    (hB : 0 ≤ B) (hS0 : 0 ≤ S) (hE : 0 ≤ E) (lweKey key bsk : List (BitVec w))
    (hk : KeyFits N k key) (hS : KeyBound S key) (hs : Lwe.BinaryKey lweKey) (hbsk : BskEnc N k b l lweKey key bsk E) :
    SignPbs (fun o c a => bootstrap (cmuxFft T N k b l) N logN o c a (bskGgsws T N k l bsk)) N k lweKey key
      ((1 + weight lweKey) * 2 ^ (w - logN - 2)) (lweKey.length * epBound w N k b l S E B 1) := by
  intro out c α β e ho hc hp he
  have hN0 : 0 < N := by rw [hNN]; positivity
  obtain ⟨t1, t2⟩ := C31_trivial_accumulator N k hN0 key (List.replicate N (0#w - α)) (by simp)
  obtain ⟨r, r1, -, r2, r3⟩ := C31_lookup T N k b l logN hNN hlog D B S E hT hD h hB hS0 hE lweKey key bsk
    (signAccumulator N k α) (List.replicate N (0#w - α)) c out hk hS hs hbsk t1 (by simp) t2 hc ho
    (if β then α else -α) (fun d hd hcl => sign_position hNN hlog _ α β e _ hp he d hd hcl)
  refine ⟨r, r1, r2, _, r3, ?_⟩
  rw [BV.intCast_toInt]; ring

theorem one_shl (n : Nat) : (1#w) <<< n = (((2 : Int) ^ n : Int) : BitVec w) := by
  rw [BV.shl_eq_mul, show (1#w : BitVec w) = 1 from rfl, one_mul]
  push_cast; rfl

/-- `m 2^(w-1)` only depends on the parity of `m`. -/
theorem top_bit (hw : 0 < w) (m : Nat) : (((m : Int) * 2 ^ (w - 1) : Int) : BitVec w) =
    (((if m % 2 = 1 then 2 ^ (w - 1) else 0 : Int)) : BitVec w) := by
  rw [BV.intCast_eq_iff]
  have h2 : (2 : Int) ^ w = 2 * 2 ^ (w - 1) := by rw [← pow_succ']; congr 1; omega
  refine ⟨(m / 2 : Nat), ?_⟩
  rw [h2]
  have := Nat.div_add_mod m 2
  have h3 : (m : Int) = 2 * ((m / 2 : Nat) : Int) + ((m % 2 : Nat) : Int) := by exact_mod_cast this.symm
  generalize (2 : Int) ^ (w - 1) = A
  generalize ((m / 2 : Nat) : Int) = q at *
  rcases Nat.mod_two_eq_zero_or_one m with h | h <;> rw [h] at h3 ⊢ <;> rw [h3] <;> push_cast <;> norm_num <;> ring

end Verif.Wop
