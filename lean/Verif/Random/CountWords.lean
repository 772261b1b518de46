import Verif.Random.CountLemmas
import Mathlib.Algebra.BigOperators.Fin
/-
How many strings of bytes give a word, for each sampler.
-/
namespace Verif.Random
open Verif.Csprng (Build)

variable {M : Type} [AddCommMonoid M]

theorem sum_bitVec (w : Nat) (F : Nat → M) : ∑ x : BitVec w, F x.toNat = ∑ i ∈ Finset.range (2 ^ w), F i := by
  rw [← Fin.sum_univ_eq_sum_range]
  exact Fintype.sum_equiv ⟨BitVec.toFin, BitVec.ofFin, fun _ => rfl, fun _ => rfl⟩ _ _ fun _ => rfl

theorem sum_range_mul (a : Nat) (F : Nat → M) : ∀ k,
    ∑ m ∈ Finset.range (k * a), F m = ∑ i ∈ Finset.range k, ∑ j ∈ Finset.range a, F (j + a * i)
  | 0 => by simp
  | k + 1 => by
    rw [Finset.sum_range_succ, Nat.succ_mul, Finset.sum_range_add, sum_range_mul a F k]
    congr 1
    refine Finset.sum_congr rfl fun j _ => ?_
    congr 1; ring

theorem sum_fromLE (F : Nat → M) : ∀ c,
    ∑ bs : Fin c → BitVec 8, F (fromLE (List.ofFn bs)) = ∑ i ∈ Finset.range (256 ^ c), F i
  | 0 => by rw [Fintype.sum_unique]; simp [fromLE]
  | c + 1 => by
    rw [sum_cons c fun bs => F (fromLE bs), pow_succ, sum_range_mul]
    simp only [fromLE]
    rw [sum_bitVec 8 fun b => ∑ y : Fin c → BitVec 8, F (b + 256 * fromLE (List.ofFn y))]
    refine Eq.trans (Finset.sum_congr rfl fun b _ => ?_) Finset.sum_comm
    exact sum_fromLE (fun n => F (b + 256 * n)) c

/-- The words read from all the strings of bytes of their size are all the words. -/
theorem sum_words (c : Nat) (F : BitVec (8 * c) → M) :
    ∑ bs : Fin c → BitVec 8, F (BitVec.ofNat (8 * c) (fromLE (List.ofFn bs))) = ∑ x : BitVec (8 * c), F x := by
  rw [sum_fromLE (fun n => F (BitVec.ofNat (8 * c) n))]
  have e := sum_bitVec (8 * c) (fun n => F (BitVec.ofNat (8 * c) n))
  rw [show (256 : Nat) ^ c = 2 ^ (8 * c) by rw [pow_mul]; rfl]
  rw [← e]
  refine Finset.sum_congr rfl fun x _ => ?_
  rw [BitVec.ofNat_toNat, BitVec.setWidth_eq]

/-! ### The samplers on lists -/

def luniform (w : Nat) : LSamp (BitVec w) := fun bs =>
  match lrep (w / 8) lnext bs with
  | none => none
  | some (x, r) => some (BitVec.ofNat w (fromLE x), r)

theorem sim_uniform (w : Nat) : Sim (uniform w) (luniform w) := by
  intro g bs h
  rcases sim_next.rep (w / 8) g bs h with ⟨h1, h2⟩ | ⟨a, r, g', h1, h2, h3⟩
  · left; exact ⟨by rw [luniform, h1], by rw [uniform, h2]⟩
  · right; exact ⟨_, r, g', by rw [luniform, h1], by rw [uniform, h2], h3⟩

theorem fixed_uniform (w : Nat) : LFixed (luniform w) (w / 8) fun bs => BitVec.ofNat w (fromLE bs) := by
  intro bs
  rw [luniform, lrep_next]
  split <;> rename_i h <;> split at h <;> simp_all

def lbinary (w : Nat) : LSamp (BitVec w) := fun bs =>
  match lnext bs with
  | none => none
  | some (b, r) => some (if b &&& 1#8 = 1#8 then 1#w else 0#w, r)

theorem sim_binary (w : Nat) : Sim (uniformBinary w) (lbinary w) := by
  intro g bs h
  rcases sim_next g bs h with ⟨h1, h2⟩ | ⟨a, r, g', h1, h2, h3⟩
  · left; exact ⟨by rw [lbinary, h1], by rw [uniformBinary, h2]⟩
  · right; exact ⟨_, r, g', by rw [lbinary, h1], by rw [uniformBinary, h2], h3⟩

theorem fixed_binary (w : Nat) :
    LFixed (lbinary w) 1 fun bs => if bs.getD 0 0 &&& 1#8 = 1#8 then 1#w else 0#w := by
  intro bs
  cases bs <;> simp [lbinary, lnext]

def lshift (w : Nat) (f : BitVec w → BitVec w) : LSamp (BitVec w) := fun bs =>
  (luniform w bs).map fun r => (f r.1, r.2)

theorem fixed_shift (w : Nat) (f : BitVec w → BitVec w) :
    LFixed (lshift w f) (w / 8) fun bs => f (BitVec.ofNat w (fromLE bs)) := by
  intro bs
  rw [lshift, fixed_uniform]
  split <;> rfl

theorem shift_ok (m : Build) {w n : Nat} (h0 : 0 < n) (hn : n ≤ w) (hw : w < 2 ^ 64) :
    shiftAmount m w n = some (w - n) := by
  cases m
  · rw [shiftAmount, if_pos ⟨hn, by omega⟩]
  · rw [shiftAmount, show 2 ^ 64 + w - n = (w - n) + 2 ^ 64 by omega, Nat.add_mod_right,
      Nat.mod_eq_of_lt (by omega), Nat.mod_eq_of_lt (by omega)]

theorem sim_lsb (m : Build) {w n : Nat} (h0 : 0 < n) (hn : n ≤ w) (hw : w < 2 ^ 64) :
    Sim (uniformLsb m w n) (lshift w fun x => x >>> (w - n)) := by
  intro g bs h
  rcases sim_uniform w g bs h with ⟨h1, h2⟩ | ⟨a, r, g', h1, h2, h3⟩
  · left; exact ⟨by rw [lshift, h1]; rfl, by rw [uniformLsb, h2]⟩
  · right
    exact ⟨_, r, g', by rw [lshift, h1]; rfl, by rw [uniformLsb, h2, shift_ok m h0 hn hw], h3⟩

theorem sim_msb (m : Build) {w n : Nat} (h0 : 0 < n) (hn : n ≤ w) (hw : w < 2 ^ 64) :
    Sim (uniformMsb m w n) (lshift w fun x => x <<< (w - n)) := by
  intro g bs h
  rcases sim_uniform w g bs h with ⟨h1, h2⟩ | ⟨a, r, g', h1, h2, h3⟩
  · left; exact ⟨by rw [lshift, h1]; rfl, by rw [uniformMsb, h2]⟩
  · right
    exact ⟨_, r, g', by rw [lshift, h1]; rfl, by rw [uniformMsb, h2, shift_ok m h0 hn hw], h3⟩

/-! ### Counts of one draw -/

theorem lways_uniform (w : Nat) (h8 : 8 ∣ w) (a : BitVec w) : lways (luniform w) (w / 8) a = 1 := by
  obtain ⟨c, rfl⟩ := h8
  rw [lways_fixed (fixed_uniform _)]
  have e : 8 * c / 8 = c := by omega
  rw [e, sum_words c fun x => if x = a then 1 else 0]
  simp

theorem lways_binary (w : Nat) (hw : 0 < w) (a : BitVec w) :
    lways (lbinary w) 1 a = if a = 0 ∨ a = 1#w then 128 else 0 := by
  rw [lways_fixed (fixed_binary _), sum_cons 0 fun bs => if (if bs.getD 0 0 &&& 1#8 = 1#8 then 1#w else 0#w) = a then 1 else 0]
  have h10 : 1#w ≠ 0#w := by
    intro h
    have := congrArg BitVec.toNat h
    simp only [BitVec.toNat_ofNat] at this
    rw [Nat.mod_eq_of_lt (Nat.one_lt_two_pow (by omega)), Nat.zero_mod] at this
    omega
  have e : ∀ b : BitVec 8, (∑ y : Fin 0 → BitVec 8,
      if (if (b :: List.ofFn y).getD 0 0 &&& 1#8 = 1#8 then 1#w else 0#w) = a then 1 else 0) =
      (if b.toNat % 2 = 1 then (if a = 1#w then 1 else 0) else (if a = 0#w then 1 else 0)) := by
    intro b
    rw [Fintype.sum_unique]
    simp only [List.getD_cons_zero]
    have : (b &&& 1#8 = 1#8) ↔ b.toNat % 2 = 1 := by revert b; decide
    by_cases hb : b.toNat % 2 = 1
    · rw [if_pos (this.2 hb), if_pos hb]; simp only [eq_comm]
    · rw [if_neg (fun h => hb (this.1 h)), if_neg hb]; simp only [eq_comm]
  simp only [e]
  rw [sum_bitVec 8 fun b => if b % 2 = 1 then (if a = 1#w then 1 else 0) else (if a = 0#w then 1 else 0)]
  by_cases h1 : a = 1#w
  · subst h1
    rw [if_pos (Or.inr rfl)]
    simp only [if_true, h10, if_false]
    rw [show 2 ^ 8 = 128 * 2 from rfl, sum_range_mul]
    simp [Nat.add_mod]
    decide
  · by_cases h2 : a = 0#w
    · subst h2
      rw [if_pos (show 0#w = 0 ∨ 0#w = 1#w from Or.inl rfl)]
      simp only [Ne.symm h10, if_true, if_false]
      rw [show 2 ^ 8 = 128 * 2 from rfl, sum_range_mul]
      simp [Finset.sum_range_succ, Nat.add_mod]
    · rw [if_neg (show ¬(a = 0 ∨ a = 1#w) from fun h => h.elim h2 h1)]
      simp [h1, h2]

theorem lways_lsb (w n : Nat) (h8 : 8 ∣ w) (hn : n ≤ w) (a : BitVec w) :
    lways (lshift w fun x => x >>> (w - n)) (w / 8) a = if a.toNat < 2 ^ n then 2 ^ (w - n) else 0 := by
  obtain ⟨c, rfl⟩ := h8
  rw [lways_fixed (fixed_shift _ _)]
  have e : 8 * c / 8 = c := by omega
  rw [e, sum_words c fun x => if x >>> (8 * c - n) = a then 1 else 0]
  have e1 : ∀ x : BitVec (8 * c), (if x >>> (8 * c - n) = a then 1 else 0) =
      (if x.toNat / 2 ^ (8 * c - n) = a.toNat then 1 else 0) := by
    intro x
    simp only [← BitVec.toNat_inj, BitVec.toNat_ushiftRight, Nat.shiftRight_eq_div_pow]
  simp only [e1]
  rw [sum_bitVec (8 * c) fun x => if x / 2 ^ (8 * c - n) = a.toNat then 1 else 0,
    show (2 : Nat) ^ (8 * c) = 2 ^ n * 2 ^ (8 * c - n) by rw [← pow_add]; congr 1; omega, sum_range_mul]
  have e2 : ∀ i ∈ Finset.range (2 ^ n), (∑ j ∈ Finset.range (2 ^ (8 * c - n)),
      if (j + 2 ^ (8 * c - n) * i) / 2 ^ (8 * c - n) = a.toNat then 1 else 0) =
      if i = a.toNat then 2 ^ (8 * c - n) else 0 := by
    intro i _
    have : ∀ j ∈ Finset.range (2 ^ (8 * c - n)), (if (j + 2 ^ (8 * c - n) * i) / 2 ^ (8 * c - n) = a.toNat then 1 else 0) =
        if i = a.toNat then 1 else 0 := by
      intro j hj
      rw [Nat.add_mul_div_left _ _ (by positivity), Nat.div_eq_of_lt (Finset.mem_range.1 hj), Nat.zero_add]
    rw [Finset.sum_congr rfl this]
    split <;> simp
  rw [Finset.sum_congr rfl e2, Finset.sum_ite_eq']
  simp only [Finset.mem_range]

theorem lways_msb (w n : Nat) (h8 : 8 ∣ w) (hn : n ≤ w) (a : BitVec w) :
    lways (lshift w fun x => x <<< (w - n)) (w / 8) a = if 2 ^ (w - n) ∣ a.toNat then 2 ^ (w - n) else 0 := by
  obtain ⟨c, rfl⟩ := h8
  rw [lways_fixed (fixed_shift _ _)]
  have e : 8 * c / 8 = c := by omega
  rw [e, sum_words c fun x => if x <<< (8 * c - n) = a then 1 else 0]
  have e1 : ∀ x : BitVec (8 * c), (if x <<< (8 * c - n) = a then 1 else 0) =
      (if x.toNat * 2 ^ (8 * c - n) % 2 ^ (8 * c) = a.toNat then 1 else 0) := by
    intro x
    simp only [← BitVec.toNat_inj, BitVec.toNat_shiftLeft, Nat.shiftLeft_eq]
  simp only [e1]
  have ew : (2 : Nat) ^ (8 * c) = 2 ^ (8 * c - n) * 2 ^ n := by rw [← pow_add]; congr 1; omega
  have ha := a.isLt
  generalize a.toNat = A at *
  rw [sum_bitVec (8 * c) fun x => if x * 2 ^ (8 * c - n) % 2 ^ (8 * c) = A then 1 else 0]
  rw [ew] at ha ⊢
  generalize 2 ^ (8 * c - n) = K at *
  have hn0 : 0 < 2 ^ n := by positivity
  generalize 2 ^ n = Q at *
  rw [sum_range_mul]
  have hK : 0 < K := Nat.pos_of_ne_zero (by rintro rfl; simp at ha)
  have e2 : ∀ i ∈ Finset.range K, (∑ j ∈ Finset.range Q, if (j + Q * i) * K % (K * Q) = A then 1 else 0) =
      if K ∣ A then 1 else 0 := by
    intro i _
    have : ∀ j ∈ Finset.range Q, (if (j + Q * i) * K % (K * Q) = A then 1 else 0) = if j = A / K ∧ K ∣ A then 1 else 0 := by
      intro j hj
      have hj := Finset.mem_range.1 hj
      have e3 : (j + Q * i) * K % (K * Q) = K * j := by
        rw [show (j + Q * i) * K = K * j + K * Q * i by ring, Nat.add_mul_mod_self_left,
          Nat.mod_eq_of_lt (Nat.mul_lt_mul_of_pos_left hj hK)]
      rw [e3]
      have : K * j = A ↔ j = A / K ∧ K ∣ A := by
        constructor
        · rintro rfl; exact ⟨by rw [Nat.mul_div_cancel_left _ hK], Dvd.intro _ rfl⟩
        · rintro ⟨rfl, h⟩; exact Nat.mul_div_cancel' h
      simp only [this]
    rw [Finset.sum_congr rfl this]
    by_cases hd : K ∣ A
    · simp only [hd, and_true, if_true]
      rw [Finset.sum_ite_eq', if_pos]
      rw [Finset.mem_range, Nat.div_lt_iff_lt_mul hK]
      rwa [Nat.mul_comm] at ha
    · simp [hd]
  rw [Finset.sum_congr rfl e2]
  split <;> simp

end Verif.Random
