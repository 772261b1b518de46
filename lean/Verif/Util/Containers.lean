import Mathlib.Algebra.BigOperators.Group.Finset.Basic
import Mathlib.Algebra.BigOperators.Group.List.Basic
import Verif.Util.Lists
/-
Slice and tensor primitives shared by the models: `chunks`, `update_with_one`, and outcomes.
Source: /repo/concrete-core/src/commons/math/tensor/tensor.rs.
-/
namespace Verif

/-- Outcome of a checked engine call: a value, a returned error, or a panic. -/
inductive Res (ε α : Type) where
  | ok (a : α)
  | err (e : ε)
  | panic
  deriving DecidableEq, Repr

variable {α β : Type}

/-- tensor.rs:1045-1057 `update_with_one`: elementwise in-place update by a zipped tensor. The lengths
are compared in debug builds only; a longer output keeps its tail. -/
def zipUpdate (f : α → β → α) : List α → List β → List α
  | a :: as, b :: bs => f a b :: zipUpdate f as bs
  | as, _ => as

/-- `slice::chunks(n)` for `n > 0`, at most `fuel` chunks. -/
def chunksAux (n : Nat) : Nat → List α → List (List α)
  | 0, _ => []
  | _ + 1, [] => []
  | fuel + 1, a :: l => (a :: l).take n :: chunksAux n fuel ((a :: l).drop n)

/-- tensor.rs:350-359, 407-418 `subtensor_iter`: `slice::chunks(n)` (`n > 0`; Rust panics for
`n = 0`). -/
def chunks (n : Nat) (l : List α) : List (List α) := chunksAux n l.length l

/-- The `i`-th block of `n` elements of a flat container. -/
def block (n : Nat) (l : List α) (i : Nat) : List α := (l.drop (i * n)).take n

theorem zipUpdate_length (f : α → β → α) : ∀ (as : List α) (bs : List β),
    (zipUpdate f as bs).length = as.length
  | [], _ => by simp [zipUpdate]
  | a :: as, [] => by simp [zipUpdate]
  | a :: as, b :: bs => by simp [zipUpdate, zipUpdate_length f as bs]

theorem zipUpdate_getElem? (f : α → β → α) : ∀ (as : List α) (bs : List β) (i : Nat),
    (zipUpdate f as bs)[i]? =
      match as[i]?, bs[i]? with
      | some a, some b => some (f a b)
      | some a, none => some a
      | none, _ => none
  | [], _, i => by simp [zipUpdate]
  | a :: as, [], i => by
    simp only [zipUpdate, List.getElem?_nil]
    cases (a :: as)[i]? <;> rfl
  | a :: as, b :: bs, 0 => by simp [zipUpdate]
  | a :: as, b :: bs, i + 1 => by simp [zipUpdate, zipUpdate_getElem? f as bs i]

theorem zipUpdate_eq_zipWith (f : α → β → α) : ∀ (as : List α) (bs : List β),
    as.length ≤ bs.length → zipUpdate f as bs = List.zipWith f as bs
  | [], _, _ => by simp [zipUpdate]
  | a :: as, [], h => by simp at h
  | a :: as, b :: bs, h => by
    simp only [zipUpdate, List.zipWith_cons_cons]
    rw [zipUpdate_eq_zipWith f as bs (by simpa using h)]

theorem zipUpdate_getD (f : α → β → α) (as : List α) (bs : List β) (i : Nat) (da : α) (db : β)
    (h1 : i < as.length) (h2 : i < bs.length) :
    (zipUpdate f as bs).getD i da = f (as.getD i da) (bs.getD i db) := by
  simp only [List.getD_eq_getElem?_getD, zipUpdate_getElem?, List.getElem?_eq_getElem h1,
    List.getElem?_eq_getElem h2, Option.getD_some]

theorem block_length (n : Nat) (l : List α) (i : Nat) (h : (i + 1) * n ≤ l.length) :
    (block n l i).length = n := by
  rw [Nat.add_mul, Nat.one_mul] at h
  simp only [block, List.length_take, List.length_drop]
  omega

theorem block_getElem? (n : Nat) (l : List α) (i j : Nat) (h : j < n) :
    (block n l i)[j]? = l[i * n + j]? := by
  simp [block, h]

theorem block_getD (n : Nat) (l : List α) (i j : Nat) (d : α) (h : j < n) :
    (block n l i).getD j d = l.getD (i * n + j) d := by
  simp only [List.getD_eq_getElem?_getD, block_getElem? n l i j h]

theorem chunksAux_eq (n : Nat) (hn : 0 < n) : ∀ (fuel m : Nat) (l : List α),
    l.length = m * n → m ≤ fuel → chunksAux n fuel l = (List.range m).map (block n l)
  | 0, m, l, _, hf => by
    have : m = 0 := by omega
    subst this; rfl
  | fuel + 1, 0, l, h, _ => by
    have : l = [] := by simpa using h
    subst this; rfl
  | fuel + 1, m + 1, l, h, hf => by
    cases l with
    | nil => simp only [List.length_nil, Nat.add_mul, Nat.one_mul] at h; omega
    | cons a l =>
      rw [chunksAux, chunksAux_eq n hn fuel m _ (by
        rw [List.length_drop, h, Nat.add_mul, Nat.one_mul]; omega) (by omega)]
      rw [List.range_succ_eq_map, List.map_cons, List.map_map]
      congr 1
      · simp [block]
      · apply List.map_congr_left
        intro i _
        simp only [block, Function.comp, List.drop_drop, Nat.succ_eq_add_one, Nat.add_mul,
          Nat.one_mul]
        rw [Nat.add_comm n]

theorem chunks_eq (n : Nat) (hn : 0 < n) (m : Nat) (l : List α) (h : l.length = m * n) :
    chunks n l = (List.range m).map (block n l) :=
  chunksAux_eq n hn l.length m l h (by rw [h]; exact Nat.le_mul_of_pos_right m hn)

theorem chunksAux_flatten (n : Nat) (hn : 0 < n) : ∀ (fuel : Nat) (l : List α),
    l.length ≤ fuel → (chunksAux n fuel l).flatten = l
  | 0, l, h => by
    have : l = [] := by simpa using h
    subst this; rfl
  | fuel + 1, [], _ => rfl
  | fuel + 1, a :: l, h => by
    rw [chunksAux, List.flatten_cons, chunksAux_flatten n hn fuel _ (by
      simp only [List.length_drop, List.length_cons] at h ⊢; omega), List.take_append_drop]

theorem chunks_flatten (n : Nat) (hn : 0 < n) (l : List α) : (chunks n l).flatten = l :=
  chunksAux_flatten n hn l.length l (Nat.le_refl _)

theorem chunks_length (n : Nat) (hn : 0 < n) (m : Nat) (l : List α) (h : l.length = m * n) :
    (chunks n l).length = m := by
  rw [chunks_eq n hn m l h]; simp

theorem flatten_length_uniform (n : Nat) (l : List (List α)) (h : ∀ x ∈ l, x.length = n) :
    l.flatten.length = l.length * n := by
  induction l with
  | nil => simp
  | cons a l ih =>
    rw [List.flatten_cons, List.length_append, ih (fun x hx => h x (by simp [hx])),
      h a (by simp), List.length_cons, Nat.add_mul, Nat.one_mul, Nat.add_comm]

theorem block_flatten (n : Nat) (hn : 0 < n) (l : List (List α)) (h : ∀ x ∈ l, x.length = n) (i : Nat)
    (x : List α) (hx : l[i]? = some x) : block n l.flatten i = x := by
  have hxm : x ∈ l := List.mem_of_getElem? hx
  have hi : i < l.length := (List.getElem?_eq_some_iff.1 hx).1
  have hlen : (block n l.flatten i).length = n := by
    apply block_length
    rw [flatten_length_uniform n l h]
    exact Nat.mul_le_mul_right n hi
  apply List.ext_getElem?
  intro j
  by_cases hj : j < n
  · rw [block_getElem? n _ i j hj, getElem?_flatten_uniform n hn l h]
    have h1 : (i * n + j) / n = i := by
      rw [Nat.add_comm, Nat.add_mul_div_right _ _ hn, Nat.div_eq_of_lt hj, Nat.zero_add]
    have h2 : (i * n + j) % n = j := by
      rw [Nat.add_comm, Nat.add_mul_mod_self_right, Nat.mod_eq_of_lt hj]
    rw [h1, h2, hx]
    rfl
  · rw [List.getElem?_eq_none (by omega), List.getElem?_eq_none (by rw [h x hxm]; omega)]

theorem chunks_of_flatten (n : Nat) (hn : 0 < n) (l : List (List α)) (h : ∀ x ∈ l, x.length = n) :
    chunks n l.flatten = l := by
  rw [chunks_eq n hn l.length _ (flatten_length_uniform n l h)]
  apply List.ext_getElem?
  intro i
  by_cases hi : i < l.length
  · rw [List.getElem?_map, List.getElem?_range hi, Option.map_some,
      block_flatten n hn l h i l[i] (List.getElem?_eq_getElem hi), List.getElem?_eq_getElem hi]
  · rw [List.getElem?_eq_none (by simp; omega), List.getElem?_eq_none (by omega)]

/-- A fold each of whose steps changes a quantity by a known amount. -/
theorem foldl_measure {σ ι M : Type} [AddCommMonoid M] (step : σ → ι → σ) (P : σ → Prop)
    (μ : σ → M) (d : ι → M) : ∀ (l : List ι) (s : σ), P s →
    (∀ s i, i ∈ l → P s → P (step s i) ∧ μ (step s i) = μ s + d i) →
    P (l.foldl step s) ∧ μ (l.foldl step s) = μ s + (l.map d).sum
  | [], s, hs, _ => by simp [hs]
  | i :: l, s, hs, h => by
    obtain ⟨h1, h2⟩ := h s i (by simp) hs
    obtain ⟨h3, h4⟩ := foldl_measure step P μ d l (step s i) h1
      (fun s j hj => h s j (by simp [hj]))
    refine ⟨h3, ?_⟩
    rw [List.foldl_cons, h4, h2, List.map_cons, List.sum_cons, add_assoc]

theorem list_sum_range {M : Type} [AddCommMonoid M] (f : Nat → M) (n : Nat) :
    ((List.range n).map f).sum = ∑ i ∈ Finset.range n, f i := by
  induction n with
  | zero => simp
  | succ n ih => rw [List.range_succ, Finset.sum_range_succ, List.map_append, List.sum_append, ih]; simp

end Verif
