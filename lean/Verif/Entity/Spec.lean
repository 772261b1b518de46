import Verif.Entity.Model
/-
Specification of the layout of the entities: what it means for an iterator to cut a container, and for an
update through a mutable iterator to reach exactly the part it names. Nothing here depends on how the
iterators are written.
-/
namespace Verif.Entity

variable {α : Type}

/-- `parts` are the `n` consecutive, disjoint parts of `k` elements of the container, in order, and they
cover it: part `i` is `cont[i*k], ..., cont[i*k + k-1]`. -/
structure Splits (cont : List α) (n k : Nat) (parts : List (List α)) : Prop where
  whole : cont.length = n * k
  count : parts.length = n
  part : ∀ i : Nat, i < n → ∃ p : List α, parts[i]? = some p ∧ p.length = k ∧
    ∀ j : Nat, j < k → p[j]? = cont[i * k + j]?

/-- A function rewriting part `i` in place: it cannot change the number of elements. -/
def InPlace (k : Nat) (f : Nat → List α → List α) : Prop :=
  ∀ (i : Nat) (p : List α), p.length = k → (f i p).length = k

/-- `after` is `before` with part `i` (of `k` elements) rewritten by `f i`, for every `i < n`. -/
def Rewritten (n k : Nat) (f : Nat → List α → List α) (before after : List α) : Prop :=
  after.length = before.length ∧
  ∀ i : Nat, i < n → (after.drop (i * k)).take k = f i ((before.drop (i * k)).take k)

end Verif.Entity
