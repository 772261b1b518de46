/-
General list lemmas (no model content).
-/
namespace Verif

/-- Indexing in a concatenation of blocks of equal length `n`. -/
theorem getElem?_flatten_uniform {α : Type} (n : Nat) (hn : 0 < n) (l : List (List α))
    (h : ∀ x ∈ l, x.length = n) (j : Nat) :
    l.flatten[j]? = (l[j / n]?).bind fun b => b[j % n]? := by
  induction l generalizing j with
  | nil => simp
  | cons a l ih =>
    have ha : a.length = n := h a (by simp)
    rw [List.flatten_cons, List.getElem?_append]
    by_cases hj : j < n
    · have h1 : j / n = 0 := Nat.div_eq_of_lt hj
      have h2 : j % n = j := Nat.mod_eq_of_lt hj
      simp [ha, hj, h1, h2]
    · have h1 : j / n = (j - n) / n + 1 := by
        rw [Nat.div_eq j n, if_pos ⟨hn, by omega⟩]
      have h2 : j % n = (j - n) % n := by
        rw [Nat.mod_eq_sub_mod (by omega)]
      rw [ha, if_neg hj, ih (fun x hx => h x (by simp [hx])), h1, h2]
      simp

end Verif
