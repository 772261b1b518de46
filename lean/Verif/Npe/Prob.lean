import Mathlib.Algebra.BigOperators.Ring.Finset
import Mathlib.Algebra.BigOperators.Pi
import Mathlib.Algebra.BigOperators.Field
import Mathlib.Algebra.Order.BigOperators.Ring.Finset
import Mathlib.Algebra.Order.Field.Rat
import Mathlib.Data.Fintype.BigOperators
import Mathlib.Data.Fintype.Pi
import Mathlib.Data.Fintype.Prod
import Mathlib.Tactic.Ring
import Mathlib.Tactic.Linarith
import Mathlib.Tactic.FieldSimp
/-
Specification vocabulary: finite probability distributions, expectation, variance, independent products.
Nothing here refers to the model.
-/
namespace Verif.Npe

/-- A probability distribution on a finite type, with rational weights. -/
structure Dist (α : Type) [Fintype α] where
  p : α → ℚ
  nonneg : ∀ a, 0 ≤ p a
  total : ∑ a, p a = 1

namespace Dist
variable {α β : Type} [Fintype α] [Fintype β]

/-- The expectation of a random variable. -/
def E (d : Dist α) (X : α → ℚ) : ℚ := ∑ a, d.p a * X a

/-- The variance of a random variable: the expected square of the distance to the expectation. -/
def Var (d : Dist α) (X : α → ℚ) : ℚ := d.E fun a => (X a - d.E X) ^ 2

/-- The uniform distribution. -/
def uniform (α : Type) [Fintype α] [Nonempty α] : Dist α where
  p _ := 1 / (Fintype.card α : ℚ)
  nonneg _ := div_nonneg zero_le_one (Nat.cast_nonneg _)
  total := by
    have : (Fintype.card α : ℚ) ≠ 0 := by exact_mod_cast Fintype.card_ne_zero
    simp [this]

/-- Two independent draws. -/
def prod (d : Dist α) (e : Dist β) : Dist (α × β) where
  p ab := d.p ab.1 * e.p ab.2
  nonneg ab := mul_nonneg (d.nonneg _) (e.nonneg _)
  total := by
    rw [Fintype.sum_prod_type]
    simp only [← Finset.mul_sum, e.total, mul_one, d.total]

/-- A family of independent draws. -/
def pi {n : Nat} (d : Fin n → Dist α) : Dist (Fin n → α) where
  p ω := ∏ i, (d i).p (ω i)
  nonneg ω := Finset.prod_nonneg fun i _ => (d i).nonneg _
  total := by
    have := Finset.prod_univ_sum (fun _ : Fin n => (Finset.univ : Finset α)) (fun i a => (d i).p a)
    rw [Fintype.piFinset_univ] at this
    rw [← this]
    simp [(d _).total]

/-- Independent draws of the same distribution. -/
def iid (n : Nat) (d : Dist α) : Dist (Fin n → α) := pi fun _ => d

end Dist
end Verif.Npe
