import Verif.Npe.Prob
/-
Helper lemmas about finite distributions.
-/
namespace Verif.Npe.Dist
variable {α β : Type} [Fintype α] [Fintype β]

theorem E_const (d : Dist α) (c : ℚ) : d.E (fun _ => c) = c := by
  rw [E, ← Finset.sum_mul, d.total, one_mul]

theorem E_add (d : Dist α) (X Y : α → ℚ) : d.E (fun a => X a + Y a) = d.E X + d.E Y := by
  simp only [E, mul_add, Finset.sum_add_distrib]

theorem E_mul_left (d : Dist α) (c : ℚ) (X : α → ℚ) : d.E (fun a => c * X a) = c * d.E X := by
  rw [E, E, Finset.mul_sum]
  exact Finset.sum_congr rfl fun a _ => by ring

theorem E_mul_right (d : Dist α) (c : ℚ) (X : α → ℚ) : d.E (fun a => X a * c) = d.E X * c := by
  rw [E, E, Finset.sum_mul]
  exact Finset.sum_congr rfl fun a _ => by ring

theorem E_neg (d : Dist α) (X : α → ℚ) : d.E (fun a => -X a) = -d.E X := by
  have := E_mul_left d (-1) X
  simpa using this

theorem E_sub (d : Dist α) (X Y : α → ℚ) : d.E (fun a => X a - Y a) = d.E X - d.E Y := by
  simp only [E, mul_sub, Finset.sum_sub_distrib]

theorem E_sum {ι : Type} (d : Dist α) (s : Finset ι) (X : ι → α → ℚ) :
    d.E (fun a => ∑ i ∈ s, X i a) = ∑ i ∈ s, d.E (X i) := by
  simp only [E, Finset.mul_sum]
  exact Finset.sum_comm

theorem E_congr (d : Dist α) {X Y : α → ℚ} (h : ∀ a, X a = Y a) : d.E X = d.E Y := by
  rw [show X = Y from funext h]

theorem Var_eq (d : Dist α) (X : α → ℚ) : d.Var X = d.E (fun a => X a ^ 2) - d.E X ^ 2 := by
  rw [Var, E_congr d (Y := fun a => X a ^ 2 - (2 * d.E X) * X a + d.E X ^ 2) (fun a => by ring),
    E_add, E_sub, E_mul_left, E_const]
  ring

theorem Var_congr (d : Dist α) {X Y : α → ℚ} (h : ∀ a, X a = Y a) : d.Var X = d.Var Y := by
  rw [show X = Y from funext h]

theorem E_prod_mul (d : Dist α) (e : Dist β) (X : α → ℚ) (Y : β → ℚ) :
    (d.prod e).E (fun ab => X ab.1 * Y ab.2) = d.E X * e.E Y := by
  rw [E, E, E, Fintype.sum_prod_type, Finset.sum_mul_sum]
  exact Finset.sum_congr rfl fun a _ => Finset.sum_congr rfl fun b _ => by
    simp only [prod]; ring

theorem E_prod_fst (d : Dist α) (e : Dist β) (X : α → ℚ) :
    (d.prod e).E (fun ab => X ab.1) = d.E X := by
  have := E_prod_mul d e X (fun _ => 1)
  simpa [E_const] using this

theorem E_prod_snd (d : Dist α) (e : Dist β) (Y : β → ℚ) :
    (d.prod e).E (fun ab => Y ab.2) = e.E Y := by
  have := E_prod_mul d e (fun _ => 1) Y
  simpa [E_const] using this

/-- Integrating one factor after the other. -/
theorem E_prod (d : Dist α) (e : Dist β) (X : α × β → ℚ) :
    (d.prod e).E X = d.E fun a => e.E fun b => X (a, b) := by
  rw [E, E, Fintype.sum_prod_type]
  refine Finset.sum_congr rfl fun a _ => ?_
  rw [E, Finset.mul_sum]
  exact Finset.sum_congr rfl fun b _ => by simp only [prod]; ring

theorem Var_prod_add (d : Dist α) (e : Dist β) (X : α → ℚ) (Y : β → ℚ) :
    (d.prod e).Var (fun ab => X ab.1 + Y ab.2) = d.Var X + e.Var Y := by
  rw [Var_eq, Var_eq, Var_eq,
    E_congr (d.prod e) (Y := fun ab => X ab.1 ^ 2 + 2 * (X ab.1 * Y ab.2) + Y ab.2 ^ 2)
      (fun a => by ring),
    E_add, E_add, E_add, E_mul_left, E_prod_mul, E_prod_fst, E_prod_snd,
    E_prod_fst d e (fun a => X a ^ 2), E_prod_snd d e (fun a => Y a ^ 2)]
  ring

theorem E_pi_prod {n : Nat} (d : Fin n → Dist α) (g : Fin n → α → ℚ) :
    (pi d).E (fun ω => ∏ i, g i (ω i)) = ∏ i, (d i).E (g i) := by
  simp only [E, pi]
  have := Finset.prod_univ_sum (fun _ : Fin n => (Finset.univ : Finset α))
    (fun i a => (d i).p a * g i a)
  rw [Fintype.piFinset_univ] at this
  rw [this]
  exact Finset.sum_congr rfl fun ω _ => by rw [Finset.prod_mul_distrib]

theorem E_pi_one {n : Nat} (d : Fin n → Dist α) (i : Fin n) (g : α → ℚ) :
    (pi d).E (fun ω => g (ω i)) = (d i).E g := by
  have := E_pi_prod d (fun j a => if j = i then g a else 1)
  rw [Finset.prod_eq_single i (fun j _ hj => by simp [hj, E_const]) (by simp)] at this
  simp only [if_true] at this
  rw [← this]
  refine E_congr _ fun ω => ?_
  rw [Finset.prod_eq_single i (fun j _ hj => by simp [hj]) (by simp)]
  simp

theorem E_pi_two {n : Nat} (d : Fin n → Dist α) (i j : Fin n) (hij : i ≠ j) (g h : α → ℚ) :
    (pi d).E (fun ω => g (ω i) * h (ω j)) = (d i).E g * (d j).E h := by
  have := E_pi_prod d (fun k a => if k = i then g a else if k = j then h a else 1)
  have key : ∀ f : Fin n → ℚ, (∀ k, k ≠ i → k ≠ j → f k = 1) → ∏ k, f k = f i * f j := by
    intro f hf
    rw [← Finset.mul_prod_erase Finset.univ f (Finset.mem_univ i),
      ← Finset.mul_prod_erase (Finset.univ.erase i) f (a := j) (by simp [hij.symm]),
      Finset.prod_eq_one, mul_one]
    intro k hk
    simp only [Finset.mem_erase, Finset.mem_univ, and_true] at hk
    exact hf k hk.2 hk.1
  rw [key _ (fun k h1 h2 => by simp [h1, h2, E_const])] at this
  simp only [if_true, hij.symm, if_false] at this
  rw [← this]
  refine E_congr _ fun ω => ?_
  rw [key _ (fun k h1 h2 => by simp [h1, h2])]
  simp [hij.symm]

/-- The variance of a sum of independent variables is the sum of the variances. -/
theorem Var_pi_sum {n : Nat} (d : Fin n → Dist α) (g : Fin n → α → ℚ) :
    (pi d).Var (fun ω => ∑ i, g i (ω i)) = ∑ i, (d i).Var (g i) := by
  have hE : (pi d).E (fun ω => ∑ i, g i (ω i)) = ∑ i, (d i).E (g i) := by
    rw [E_sum]; exact Finset.sum_congr rfl fun i _ => E_pi_one d i (g i)
  rw [Var, hE]
  rw [E_congr _ (Y := fun ω => ∑ i, ∑ j, (g i (ω i) - (d i).E (g i)) * (g j (ω j) - (d j).E (g j)))
    (fun ω => by rw [← Finset.sum_sub_distrib, sq, Finset.sum_mul_sum])]
  rw [E_sum]
  refine Finset.sum_congr rfl fun i _ => ?_
  rw [E_sum, Finset.sum_eq_single i]
  · rw [Var, ← E_pi_one d i (fun a => (g i a - (d i).E (g i)) ^ 2)]
    exact E_congr (pi d) fun ω => by ring
  · intro j _ hj
    rw [E_pi_two d i j hj.symm (fun a => g i a - (d i).E (g i)) (fun a => g j a - (d j).E (g j)),
      E_sub, E_const]
    ring
  · simp

theorem E_uniform [Nonempty α] (X : α → ℚ) :
    (uniform α).E X = (∑ a, X a) / (Fintype.card α : ℚ) := by
  rw [E, Finset.sum_div]
  exact Finset.sum_congr rfl fun a _ => by simp only [uniform]; ring

end Verif.Npe.Dist
