import Verif.Capi.Model
import Verif.Lwe.Lemmas
import Verif.Entity.Props
import Mathlib.Tactic.Ring
/-
Specification of the effect of a C function on memory, and lemmas (C68).
-/
namespace Verif.Capi

open Verif
open Verif.Csprng (Build)

variable {α C : Type}

/-! ### Specification -/

/-- The words `c` are in the memory at the address `p`. -/
def At (m : List α) (p : Nat) (c : List α) : Prop := ∃ before after, m = before ++ c ++ after ∧ before.length = p

/-- The memory `m'` is `m`, except that the words at the address `p` have become `r`. -/
def Wrote (m : List α) (p : Nat) (r m' : List α) : Prop :=
  ∃ before old after, m = before ++ old ++ after ∧ m' = before ++ r ++ after ∧ before.length = p ∧ old.length = r.length

/-- The ranges `[p, p + n[` and `[q, q + k[` do not overlap. -/
def Apart (p n q k : Nat) : Prop := p + n ≤ q ∨ q + k ≤ p

/-! ### Lemmas -/

@[simp] theorem bind_done {β : Type} (a : α) (f : α → Call β) : (Call.done a >>= f) = f a := rfl
@[simp] theorem bind_abort {β : Type} (f : α → Call β) : ((Call.abort : Call α) >>= f) = .abort := rfl
@[simp] theorem bind_undef {β : Type} (f : α → Call β) : ((Call.undef : Call α) >>= f) = .undef := rfl
@[simp] theorem pure_eq (a : α) : (pure a : Call α) = .done a := rfl

theorem slice_at {m c : List α} {p n : Nat} (h : At m p c) (hn : c.length = n) : slice m p n = .done c := by
  obtain ⟨b, a, rfl, rfl⟩ := h
  rw [slice, if_pos (by simp; omega)]
  congr 1
  rw [List.append_assoc, List.drop_left, ← hn, List.take_left]

theorem at_length {m c : List α} {p : Nat} (h : At m p c) : p + c.length ≤ m.length := by
  obtain ⟨b, a, rfl, rfl⟩ := h
  simp

theorem at_of_range {m : List α} {p n : Nat} (h : p + n ≤ m.length) : ∃ c, At m p c ∧ c.length = n := by
  refine ⟨(m.drop p).take n, ⟨m.take p, m.drop (p + n), ?_, by simp; omega⟩, by simp; omega⟩
  rw [← List.drop_drop, List.append_assoc, List.take_append_drop, List.take_append_drop]

theorem wrote_store {m old r : List α} {p : Nat} (h : At m p old) (hr : r.length = old.length) :
    Wrote m p r (store m p r) := by
  obtain ⟨b, a, rfl, rfl⟩ := h
  refine ⟨b, old, a, rfl, ?_, rfl, hr.symm⟩
  have h1 : (b ++ old ++ a).take b.length = b := by rw [List.append_assoc, List.take_left]
  have h2 : (b ++ old ++ a).drop (b.length + old.length) = a := by rw [← List.length_append, List.drop_left]
  rw [store, hr, h1, h2]

theorem wrote_at {m r m' : List α} {p : Nat} (h : Wrote m p r m') : At m' p r := by
  obtain ⟨b, old, a, -, h2, h3, -⟩ := h
  exact ⟨b, a, h2, h3⟩

theorem noAlias_apart {p n q k : Nat} (h : Apart p n q k) : noAlias p n q k = .done () := if_pos h

theorem zipUpdate_const {α β : Type} (f : β → α) : ∀ (o : List α) (c : List β), o.length = c.length →
    zipUpdate (fun _ x => f x) o c = c.map f
  | [], [], _ => rfl
  | [], _ :: _, h => by simp at h
  | _ :: _, [], h => by simp at h
  | a :: o, b :: c, h => by
    simp only [zipUpdate, List.map_cons, zipUpdate_const f o c (by simpa using h)]

theorem zip_map_add {R : Type} [Add R] : ∀ (a b : List R), a.length = b.length →
    (a.zip b).map (fun c => c.1 + c.2) = zipUpdate (fun x y => x + y) a b
  | [], [], _ => rfl
  | [], _ :: _, h => by simp at h
  | _ :: _, [], h => by simp at h
  | x :: a, y :: b, h => by
    simp only [List.zip_cons_cons, List.map_cons, zipUpdate, zip_map_add a b (by simpa using h)]

/-- Adding a word to the body and to the whole mask. -/
theorem phase_add_all {R : Type} [CommRing R] (p : R) (s a : List R) (fa : Lwe.Fits s a) :
    Lwe.phase s (a.map fun c => c + p) = Lwe.phase s a + p - p * s.sum := by
  have hd : ∀ i, i ≤ s.length → (a.map fun c => c + p).getD i 0 = a.getD i 0 + p := by
    intro i hi
    have : i < a.length := by rw [fa]; omega
    simp [List.getD_eq_getElem?_getD, this]
  have hs : ∑ i ∈ Finset.range s.length, s.getD i 0 = s.sum := by
    clear fa hd
    induction s with
    | nil => rfl
    | cons x s ih =>
      rw [List.length_cons, Finset.sum_range_succ', List.sum_cons, ← ih]
      simp [add_comm]
  simp only [Lwe.phase]
  rw [hd _ le_rfl, Finset.sum_congr rfl (fun i hi => by rw [hd i (Finset.mem_range.1 hi).le, add_mul]),
    Finset.sum_add_distrib, ← Finset.mul_sum, hs]
  ring

theorem bind_eq_done {α β : Type} {c : Call α} {f : α → Call β} {b : β} :
    (c >>= f) = .done b ↔ ∃ a, c = .done a ∧ f a = .done b := by
  cases c <;> simp

theorem assert_done {p : Prop} [Decidable p] {u : Unit} (h : assert p = .done u) : p := by
  by_contra hp
  rw [assert, if_neg hp] at h
  cases h

theorem assert_true {p : Prop} [Decidable p] (h : p) : assert p = .done () := if_pos h
theorem assert_false {p : Prop} [Decidable p] (h : ¬ p) : assert p = .abort := if_neg h

/-- A transformed key that is stored word by word is read back. -/
theorem read_back {E C : Type} (toWords : E → List C) (ofWords : List C → E) (n : Nat) (hn : 0 < n) (es : List E)
    (h : ∀ e ∈ es, (toWords e).length = n ∧ ofWords (toWords e) = e) :
    (es.flatMap toWords).length = es.length * n ∧ (chunks n (es.flatMap toWords)).map ofWords = es := by
  have hl : ∀ x ∈ es.map toWords, x.length = n := by
    intro x hx
    obtain ⟨e, he, rfl⟩ := List.mem_map.1 hx
    exact (h e he).1
  rw [List.flatMap_def]
  refine ⟨by rw [flatten_length_uniform n _ hl, List.length_map], ?_⟩
  rw [chunks_of_flatten n hn _ hl, List.map_map]
  conv_rhs => rw [← List.map_id es]
  exact List.map_congr_left fun e he => (h e he).2

theorem slice_length {m c : List α} {p n : Nat} (h : slice m p n = .done c) : c.length = n := by
  rw [slice] at h
  split_ifs at h
  cases h
  simp; omega

theorem drop_chunks {l : List α} {n : Nat} (hn : 0 < n) (q : Nat) (hl : l.length = q * n) (j : Nat) (hj : j ≤ q) :
    ((chunks n l).drop j).flatten = l.drop (j * n) := by
  have h1 : ∀ x ∈ (chunks n l).take j, x.length = n := by
    intro x hx
    have := List.mem_of_mem_take hx
    rw [chunks_eq n hn q l hl] at this
    obtain ⟨i, hi, rfl⟩ := List.mem_map.1 this
    exact block_length n l i (by rw [hl]; exact Nat.mul_le_mul_right _ (List.mem_range.1 hi))
  have h2 := flatten_length_uniform n _ h1
  rw [List.length_take, chunks_length n hn q l hl, Nat.min_eq_left hj] at h2
  conv_rhs => rw [← chunks_flatten n hn l, ← List.take_append_drop j (chunks n l), List.flatten_append]
  rw [List.drop_left' h2]

end Verif.Capi
