import Verif.Random.CountSpec
import Verif.Random.Lemmas
import Mathlib.Logic.Equiv.Fin.Basic
import Mathlib.Data.List.OfFn
/-
Samplers as functions of the list of remaining bytes, and counting.
-/
namespace Verif.Random
open Verif.Csprng (Build)

/-- The remaining bytes of a generator are `bs`. -/
def Has (g : Src) (bs : List (BitVec 8)) : Prop :=
  g.pos + bs.length = g.bound ∧ ∀ i, i < bs.length → g.table (g.pos + i) = bs.getD i 0

theorem has_srcOf (bs : List (BitVec 8)) : Has (srcOf bs) bs := by
  refine ⟨by simp [srcOf], fun i _ => by simp [srcOf]⟩

/-- A sampler as a function of the list of the remaining bytes. -/
abbrev LSamp (A : Type) := List (BitVec 8) → Option (A × List (BitVec 8))

/-- `l` describes the sampler `s`. -/
def Sim {A : Type} (s : Samp A) (l : LSamp A) : Prop :=
  ∀ g bs, Has g bs → (l bs = none ∧ s g = none) ∨ ∃ a r g', l bs = some (a, r) ∧ s g = some (a, g') ∧ Has g' r

theorem Sim.result {A : Type} {s : Samp A} {l : LSamp A} (h : Sim s l) (bs : List (BitVec 8)) :
    result s bs = (l bs).map Prod.fst := by
  rcases h _ _ (has_srcOf bs) with ⟨h1, h2⟩ | ⟨a, r, g', h1, h2, -⟩
  · rw [Random.result, h1, h2]; rfl
  · rw [Random.result, h1, h2]; rfl

def lnext : LSamp (BitVec 8)
  | [] => none
  | b :: bs => some (b, bs)

theorem sim_next : Sim Src.next lnext := by
  intro g bs h
  cases bs with
  | nil =>
    left
    refine ⟨rfl, ?_⟩
    have := h.1
    simp only [List.length_nil] at this
    rw [Src.next, if_neg (by omega)]
  | cons b bs =>
    right
    have h1 := h.1
    simp only [List.length_cons] at h1
    refine ⟨b, bs, g.skip 1, rfl, ?_, ?_, ?_⟩
    · rw [next_eq, if_pos (by omega)]
      have := h.2 0 (by simp)
      simp only [Nat.add_zero, List.getD_cons_zero] at this
      rw [this]
    · simp only [Src.skip]; omega
    · intro i hi
      have := h.2 (i + 1) (by simp only [List.length_cons]; omega)
      simp only [List.getD_cons_succ] at this
      rw [← this]
      simp only [Src.skip]
      congr 1; omega

/-- Running a list sampler `n` times. -/
def lrep {A : Type} : Nat → LSamp A → LSamp (List A)
  | 0, _, bs => some ([], bs)
  | n + 1, l, bs =>
    match l bs with
    | none => none
    | some (a, r) =>
      match lrep n l r with
      | none => none
      | some (as, r') => some (a :: as, r')

theorem Sim.rep {A : Type} {s : Samp A} {l : LSamp A} (h : Sim s l) : ∀ n, Sim (rep n s) (lrep n l)
  | 0, g, bs, hb => Or.inr ⟨[], bs, g, rfl, rfl, hb⟩
  | n + 1, g, bs, hb => by
    rcases h g bs hb with ⟨h1, h2⟩ | ⟨a, r, g', h1, h2, h3⟩
    · left; exact ⟨by rw [lrep, h1], by rw [Random.rep, h2]⟩
    · rcases Sim.rep h n g' r h3 with ⟨k1, k2⟩ | ⟨as, r', g'', k1, k2, k3⟩
      · left; exact ⟨by rw [lrep, h1]; simp only [k1], by rw [Random.rep, h2]; simp only [k2]⟩
      · right
        exact ⟨a :: as, r', g'', by rw [lrep, h1]; simp only [k1], by rw [Random.rep, h2]; simp only [k2], k3⟩

theorem Sim.map {A B : Type} {s : Samp A} {l : LSamp A} (h : Sim s l) (f : A → B) :
    Sim (fun g => (s g).map fun r => (f r.1, r.2)) (fun bs => (l bs).map fun r => (f r.1, r.2)) := by
  intro g bs hb
  rcases h g bs hb with ⟨h1, h2⟩ | ⟨a, r, g', h1, h2, h3⟩
  · left; simp [h1, h2]
  · right; exact ⟨f a, r, g', by simp [h1], by simp [h2], h3⟩

/-! ### Samplers that read a fixed number of bytes -/

/-- The list sampler reads `c` bytes and gives `v` of them. -/
def LFixed {A : Type} (l : LSamp A) (c : Nat) (v : List (BitVec 8) → A) : Prop :=
  ∀ bs, l bs = if c ≤ bs.length then some (v (bs.take c), bs.drop c) else none

theorem lrep_next : ∀ c, LFixed (lrep c lnext) c id
  | 0, bs => by simp [lrep]
  | c + 1, [] => by simp [lrep, lnext]
  | c + 1, b :: bs => by
    rw [lrep, lnext]
    simp only [lrep_next c bs]
    by_cases h : c ≤ bs.length
    · simp [h]
    · simp [h]

/-! ### Counting -/

section
variable {A : Type} [DecidableEq A]

/-- The number of strings of `L` bytes for which the list sampler gives `a`. -/
def lways (l : LSamp A) (L : Nat) (a : A) : Nat :=
  ∑ bs : Fin L → BitVec 8, if (l (List.ofFn bs)).map Prod.fst = some a then 1 else 0

theorem Sim.ways {s : Samp A} {l : LSamp A} (h : Sim s l) (L : Nat) (a : A) : ways s L a = lways l L a := by
  rw [Random.ways, Finset.card_filter, lways]
  refine Finset.sum_congr rfl fun bs _ => ?_
  rw [h.result]

/-- Sums over strings of `c + L` bytes. -/
theorem sum_append {M : Type} [AddCommMonoid M] (c L : Nat) (F : List (BitVec 8) → M) :
    ∑ bs : Fin (c + L) → BitVec 8, F (List.ofFn bs) =
      ∑ x : Fin c → BitVec 8, ∑ y : Fin L → BitVec 8, F (List.ofFn x ++ List.ofFn y) := by
  rw [← Fintype.sum_prod_type']
  refine (Fintype.sum_equiv (Fin.appendEquiv c L) _ _ ?_).symm
  rintro ⟨x, y⟩
  rw [show (Fin.appendEquiv c L) (x, y) = Fin.append x y from rfl, List.ofFn_fin_append]

/-- Sums over strings of `L + 1` bytes. -/
theorem sum_cons {M : Type} [AddCommMonoid M] (L : Nat) (F : List (BitVec 8) → M) :
    ∑ bs : Fin (L + 1) → BitVec 8, F (List.ofFn bs) =
      ∑ b : BitVec 8, ∑ y : Fin L → BitVec 8, F (b :: List.ofFn y) := by
  rw [← Fintype.sum_prod_type']
  refine (Fintype.sum_equiv (Fin.consEquiv fun _ => BitVec 8) _ _ ?_).symm
  rintro ⟨x, y⟩
  simp [Fin.consEquiv, List.ofFn_succ]

theorem lways_fixed {l : LSamp A} {c : Nat} {v : List (BitVec 8) → A} (h : LFixed l c v) (a : A) :
    lways l c a = ∑ bs : Fin c → BitVec 8, if v (List.ofFn bs) = a then 1 else 0 := by
  refine Finset.sum_congr rfl fun bs _ => ?_
  rw [h, if_pos (show c ≤ (List.ofFn bs).length by simp), List.take_of_length_le (by simp)]
  simp

/-- Draws that read a fixed number of bytes are independent. -/
theorem lways_rep {l : LSamp A} {c : Nat} {v : List (BitVec 8) → A} (h : LFixed l c v) :
    ∀ (n : Nat) (as : List A), lways (lrep n l) (n * c) as =
      if as.length = n then (as.map (lways l c)).prod else 0
  | 0, as => by
    have e : lways (lrep 0 l) (0 * c) as = if ([] : List A) = as then 1 else 0 := by
      rw [lways, Nat.zero_mul, Fintype.sum_unique]
      simp [lrep]
    rw [e]
    cases as <;> simp
  | n + 1, as => by
    have e : (n + 1) * c = c + n * c := by ring
    rw [e, lways, sum_append c (n * c) fun bs => if (lrep (n + 1) l bs).map Prod.fst = some as then 1 else 0]
    have step : ∀ (x : Fin c → BitVec 8) (y : Fin (n * c) → BitVec 8),
        (lrep (n + 1) l (List.ofFn x ++ List.ofFn y)).map Prod.fst =
          ((lrep n l (List.ofFn y)).map Prod.fst).map (v (List.ofFn x) :: ·) := by
      intro x y
      rw [lrep, h, if_pos (by simp)]
      simp only [List.take_append_of_le_length (show c ≤ (List.ofFn x).length by simp),
        List.take_of_length_le (show (List.ofFn x).length ≤ c by simp),
        List.drop_append_of_le_length (show c ≤ (List.ofFn x).length by simp),
        List.drop_of_length_le (show (List.ofFn x).length ≤ c by simp), List.nil_append]
      cases lrep n l (List.ofFn y) <;> rfl
    simp only [step]
    cases as with
    | nil =>
      rw [if_neg (by simp)]
      refine Finset.sum_eq_zero fun x _ => Finset.sum_eq_zero fun y _ => if_neg ?_
      cases (lrep n l (List.ofFn y)).map Prod.fst <;> simp
    | cons a as =>
      have e2 : ∀ (x : Fin c → BitVec 8) (y : Fin (n * c) → BitVec 8),
          (if ((lrep n l (List.ofFn y)).map Prod.fst).map (v (List.ofFn x) :: ·) = some (a :: as) then 1 else 0) =
            (if v (List.ofFn x) = a then 1 else 0) * (if (lrep n l (List.ofFn y)).map Prod.fst = some as then 1 else 0) := by
        intro x y
        cases (lrep n l (List.ofFn y)).map Prod.fst with
        | none => simp
        | some q =>
          simp only [Option.map_some, Option.some.injEq, List.cons.injEq]
          by_cases h1 : v (List.ofFn x) = a <;> by_cases h2 : q = as <;> simp [h1, h2]
      simp only [e2]
      rw [← Finset.sum_mul_sum, ← lways_fixed h, ← lways, lways_rep h n as]
      simp only [List.length_cons, Nat.add_right_cancel_iff, List.map_cons, List.prod_cons]
      split <;> simp

end

end Verif.Random
