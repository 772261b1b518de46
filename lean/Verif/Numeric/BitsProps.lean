import Verif.Numeric.Bits
import Mathlib.Data.List.Basic
import Mathlib.Tactic.Ring
/-
C116. The bit representation of unsigned integers.
-/
namespace Verif.Numeric

variable {w : Nat}

/-! ### Specification -/

/-- Blocks written one after the other, separated by single spaces. -/
def spaced : List (List Char) → List Char
  | [] => []
  | [b] => b
  | b :: c :: bs => b ++ ' ' :: spaced (c :: bs)

/-- The number whose binary digits, most significant first, are the given characters. -/
def readBinary (s : List Char) : Nat := s.foldl (fun n c => 2 * n + if c = '1' then 1 else 0) 0

/-! ### Proofs -/

/-- The first `m` blocks of length `b`, and the rest. -/
def cut (b : Nat) : Nat → List Char → List (List Char)
  | 0, s => [s]
  | m + 1, s => s.take b :: cut b m (s.drop b)

theorem cut_ne (b m : Nat) (s : List Char) : cut b m s ≠ [] := by cases m <;> simp [cut]

theorem spaced_cons (b : List Char) (bs : List (List Char)) (h : bs ≠ []) : spaced (b :: bs) = b ++ ' ' :: spaced bs := by
  cases bs with
  | nil => exact absurd rfl h
  | cons c bs => rfl

theorem cut_insert (b : Nat) (r : List Char) : ∀ (m : Nat) (a : List Char), a.length = (m + 1) * b →
    spaced (cut b m (a ++ ' ' :: r)) = spaced (cut b (m + 1) (a ++ r))
  | 0, a, h => by
    have : a.length = b := by rw [h]; ring
    subst this
    simp [cut, spaced]
  | m + 1, a, h => by
    have hb : b ≤ a.length := by rw [h, Nat.add_mul]; omega
    have ih := cut_insert b r m (a.drop b) (by rw [List.length_drop, h, Nat.add_mul (m + 1)]; omega)
    have e : cut b (m + 1 + 1) (a ++ r) = (a ++ r).take b :: cut b (m + 1) ((a ++ r).drop b) := rfl
    rw [cut, e, spaced_cons _ _ (cut_ne _ _ _), spaced_cons _ _ (cut_ne _ _ _), List.take_append_of_le_length hb,
      List.drop_append_of_le_length hb, List.take_append_of_le_length hb, List.drop_append_of_le_length hb, ih]

theorem insertAll_eq (b : Nat) : ∀ (m : Nat) (s : List Char), m * b ≤ s.length →
    insertAll b (List.range' 1 m).reverse s = some (spaced (cut b m s))
  | 0, s, _ => rfl
  | m + 1, s, h => by
    have hm : m * b ≤ (m + 1) * b := Nat.mul_le_mul_right _ (by omega)
    have e : (List.range' 1 (m + 1)).reverse = (m + 1) :: (List.range' 1 m).reverse := by
      rw [List.range'_concat, List.reverse_append]
      simp [Nat.add_comm]
    rw [e, insertAll, insert, if_pos h]
    simp only
    rw [insertAll_eq b m _ (by simp; omega),
      cut_insert b _ m _ (by rw [List.length_take]; omega), List.take_append_drop]

theorem cut_flatten (b : Nat) : ∀ (m : Nat) (s : List Char), (cut b m s).flatten = s
  | 0, s => by simp [cut]
  | m + 1, s => by rw [cut, List.flatten_cons, cut_flatten, List.take_append_drop]

theorem cut_lengths (b : Nat) : ∀ (m : Nat) (s : List Char), m * b ≤ s.length →
    (cut b m s).map List.length = List.replicate m b ++ [s.length - m * b]
  | 0, s, _ => by simp [cut]
  | m + 1, s, h => by
    rw [Nat.add_mul, Nat.one_mul] at h
    rw [cut, List.map_cons, cut_lengths b m _ (by rw [List.length_drop]; omega), List.length_take, List.length_drop,
      List.replicate_succ, Nat.min_eq_left (by omega), Nat.add_mul, Nat.one_mul, Nat.sub_sub, Nat.add_comm b]
    rfl

theorem digits_length (x : BitVec w) : (digits x).length = w := by simp [digits]

theorem readBinary_append (s : List Char) (c : Char) :
    readBinary (s ++ [c]) = 2 * readBinary s + if c = '1' then 1 else 0 := by simp [readBinary]

theorem readBinary_digits (x : BitVec w) : ∀ n, n ≤ w →
    readBinary ((List.range n).map fun i => if x.getMsbD i then '1' else '0') = x.toNat / 2 ^ (w - n)
  | 0, _ => by simp [readBinary, Nat.div_eq_of_lt x.isLt]
  | n + 1, h => by
    rw [List.range_succ, List.map_append, List.map_cons, List.map_nil, readBinary_append, readBinary_digits x n (by omega)]
    have e1 : 2 ^ (w - n) = 2 ^ (w - (n + 1)) * 2 := by rw [← pow_succ]; congr 1; omega
    have e2 : x.getMsbD n = decide (x.toNat / 2 ^ (w - (n + 1)) % 2 = 1) := by
      rw [BitVec.getMsbD, BitVec.getLsbD, Nat.testBit_eq_decide_div_mod_eq]
      simp only [show n < w by omega, decide_true, Bool.true_and]
      congr 3
      rw [Nat.sub_sub, Nat.add_comm]
    rw [e1, ← Nat.div_div_eq_div_mul, e2]
    generalize x.toNat / 2 ^ (w - (n + 1)) = y
    rcases Nat.mod_two_eq_zero_or_one y with h0 | h0
    · simp [h0]; omega
    · simp [h0]; omega

/-! ### C116 -/

/-- C116: the call panics exactly when the length of the blocks is zero. -/
theorem C116_panics (x : BitVec w) (b : Nat) : toBitsString x b = none ↔ b = 0 := by
  constructor
  · intro h
    by_contra hb
    have hm : (w / b - 1) * b ≤ (digits x).length := by
      rw [digits_length]
      exact (Nat.mul_le_mul_right _ (Nat.sub_le _ _)).trans (Nat.div_mul_le_self w b)
    rw [toBitsString, if_neg hb, insertAll_eq b _ _ hm] at h
    cases h
  · rintro rfl; rfl

/-- C116: the string is a sequence of blocks separated by single spaces; the blocks hold the binary digits of the
integer, all of them, most significant first; all the blocks but the last have the length asked for; the last has between once and
twice that length, or is the only one. -/
theorem C116_blocks (x : BitVec w) (b : Nat) (hb : 0 < b) :
    ∃ init last, toBitsString x b = some (spaced (init ++ [last])) ∧
      readBinary (init ++ [last]).flatten = x.toNat ∧ (init ++ [last]).flatten.length = w ∧
      (∀ c ∈ (init ++ [last]).flatten, c = '0' ∨ c = '1') ∧ (∀ block ∈ init, block.length = b) ∧
      (b ≤ w → last.length = b + w % b) ∧ (w < b → init = []) := by
  have hle : (w / b - 1) * b ≤ (digits x).length := by
    rw [digits_length]
    exact (Nat.mul_le_mul_right _ (Nat.sub_le _ _)).trans (Nat.div_mul_le_self w b)
  have hl := cut_lengths b _ _ hle
  have hf := cut_flatten b (w / b - 1) (digits x)
  have hs : toBitsString x b = some (spaced (cut b (w / b - 1) (digits x))) := by
    rw [toBitsString, if_neg (by omega), insertAll_eq b _ _ hle]
  obtain ⟨init, last, hc⟩ : ∃ init last, cut b (w / b - 1) (digits x) = init ++ [last] :=
    ⟨_, _, (List.dropLast_append_getLast (cut_ne b (w / b - 1) (digits x))).symm⟩
  rw [hc] at hl hf hs
  rw [List.map_append, List.map_cons, List.map_nil, digits_length] at hl
  obtain ⟨h1, h2⟩ := List.append_inj' hl rfl
  refine ⟨init, last, hs, ?_, by rw [hf, digits_length], ?_, ?_, ?_, ?_⟩
  · rw [hf, digits, readBinary_digits x w le_rfl]; simp
  · intro c hc
    rw [hf] at hc
    obtain ⟨i, -, rfl⟩ := List.mem_map.1 hc
    split <;> simp
  · intro block hblock
    have : block.length ∈ init.map List.length := List.mem_map_of_mem hblock
    rw [h1] at this
    exact List.eq_of_mem_replicate this
  · intro hbw
    have h3 : last.length = w - (w / b - 1) * b := by simpa using h2
    have h4 : 0 < w / b := Nat.div_pos hbw hb
    have h5 := Nat.div_add_mod w b
    have h6 : (w / b - 1) * b + b = b * (w / b) := by
      rw [Nat.sub_mul, Nat.one_mul, Nat.mul_comm b, Nat.sub_add_cancel (Nat.le_mul_of_pos_left b h4)]
    omega
  · intro hwb
    have : init.length = w / b - 1 := by simpa using congrArg List.length h1
    rw [Nat.div_eq_of_lt hwb] at this
    exact List.length_eq_zero_iff.1 this

/-- C116 (partial): when the length asked for divides the precision, all the blocks have it, as documented. Missing: the
other lengths, for which it is false (`C116_blocks_violated`). -/
theorem C116_documented_partial (x : BitVec w) (b : Nat) (hb : 0 < b) (hw : 0 < w) (h : b ∣ w) :
    ∃ blocks, toBitsString x b = some (spaced blocks) ∧ readBinary blocks.flatten = x.toNat ∧
      ∀ block ∈ blocks, block.length = b := by
  obtain ⟨init, last, h1, h2, -, -, h3, h4, -⟩ := C116_blocks x b hb
  refine ⟨_, h1, h2, fun block hm => ?_⟩
  rcases List.mem_append.1 hm with hm | hm
  · exact h3 block hm
  · rw [List.mem_singleton.1 hm, h4 (Nat.le_of_dvd hw h), Nat.mod_eq_zero_of_dvd h, Nat.add_zero]

/-- C116 is violated for lengths that do not divide the precision: blocks of 3 asked for an `u8` leave 5 digits together. -/
theorem C116_blocks_violated : toBitsString 0xA7#8 3 = some "101 00111".toList ∧
    toBitsString 0xA7#8 5 = some "10100111".toList := by decide +kernel

theorem spaced_filter : ∀ bs : List (List Char), (∀ c ∈ bs.flatten, c = '0' ∨ c = '1') →
    (spaced bs).filter (· ≠ ' ') = bs.flatten
  | [], _ => rfl
  | [b], h => by
    rw [spaced, List.flatten_cons, List.flatten_nil, List.append_nil, List.filter_eq_self]
    intro c hc
    rcases h c (by simpa using hc) with rfl | rfl <;> decide
  | b :: c :: bs, h => by
    have ih := spaced_filter (c :: bs) fun x hx => h x (by rw [List.flatten_cons]; exact List.mem_append_right _ hx)
    have hb : b.filter (· ≠ ' ') = b := by
      rw [List.filter_eq_self]
      intro x hx
      rcases h x (by rw [List.flatten_cons]; exact List.mem_append_left _ hx) with rfl | rfl <;> decide
    rw [spaced, List.filter_append, hb, List.filter_cons_of_neg (by decide), ih, List.flatten_cons (l := b)]

/-- C116: whatever the length of the blocks, the digits of the string, without its spaces, are those of the integer, so that
two integers with the same string are equal. -/
theorem C116_injective (x y : BitVec w) (b b' : Nat) (s : List Char) :
    (toBitsString x b = some s → readBinary (s.filter (· ≠ ' ')) = x.toNat) ∧
    (toBitsString x b = some s → toBitsString y b' = some s → x = y) := by
  have key : ∀ (z : BitVec w) (b : Nat), toBitsString z b = some s → readBinary (s.filter (· ≠ ' ')) = z.toNat := by
    intro z b h
    have hb : 0 < b := by
      rcases Nat.eq_zero_or_pos b with rfl | hb
      · cases h
      · exact hb
    obtain ⟨init, last, h1, h2, -, h3, -⟩ := C116_blocks z b hb
    rw [h] at h1
    rw [Option.some.inj h1, spaced_filter _ h3, h2]
  exact ⟨key x b, fun h1 h2 => BitVec.eq_of_toNat_eq ((key x b h1).symm.trans (key y b' h2))⟩

example : toBitsString 0x1234#16 4 = some "0001 0010 0011 0100".toList ∧ 4 ∣ 16 := by decide +kernel

end Verif.Numeric
