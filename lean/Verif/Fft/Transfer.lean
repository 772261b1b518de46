import Verif.Fft.Props
import Verif.Serde.Transfer
/-
The keys a machine reads are the keys of the machine that wrote them, in the order of the reader.
-/
namespace Verif.Fft
open Verif.Float Verif.Poly Verif.Glwe Verif.Pbs Verif.Decomp Verif.BV Finset
open Verif.Serde (Order Wire reorder)

variable {w : ℕ}

/-- The complex number stored in two words of memory (`c64` is a pair of `f64`). -/
def complexOf (z : Serde.C64) : C64 := ⟨ofBits z.1, ofBits z.2⟩

/-- The transformed polynomials of size `2n` in the memory of a Fourier entity (ggsw.rs:34-39, bootstrap.rs:27-33, and
the iterators of bootstrap.rs:68-84 and ggsw.rs:96-170, which cut it into consecutive pieces). -/
def keyOf (n : ℕ) (data : List Serde.C64) : List (Option (List C64)) :=
  (chunks n data).map fun b => some (b.map complexOf)

/-- The same exchange of coefficients on complex numbers. -/
def reorderC (o o' : Order) (n : ℕ) (f : List C64) : List C64 :=
  (List.range n).map fun k => at' f (o.inv n (o'.ord n k))

theorem sum_perm (o o' : Order) (n : ℕ) (F : ℕ → ℝ) :
    ∑ k ∈ range n, F (o.inv n (o'.ord n k)) = ∑ k ∈ range n, F k := by
  refine sum_bij' (fun k _ => o.inv n (o'.ord n k)) (fun k _ => o'.inv n (o.ord n k)) ?_ ?_ ?_ ?_ ?_
  · intro k hk
    exact mem_range.2 (o.inv_lt (o'.ord_lt (mem_range.1 hk)))
  · intro k hk
    exact mem_range.2 (o'.inv_lt (o.ord_lt (mem_range.1 hk)))
  · intro k hk
    have hk := mem_range.1 hk
    rw [o.ord_inv (o'.ord_lt hk), o'.inv_ord hk]
  · intro k hk
    have hk := mem_range.1 hk
    rw [o'.ord_inv (o.ord_lt hk), o.inv_ord hk]
  · intro k _
    rfl

theorem l2_perm (o o' : Order) (n : ℕ) (f : ℕ → ℂ) : l2 n (fun k => f (o.inv n (o'.ord n k))) = l2 n f := by
  unfold l2
  rw [sum_perm o o' n fun k => ‖f k‖ ^ 2]

/-- The `n`-th roots of unity in the order of a plan. -/
def inOrder (o : Order) (n : ℕ) (std : ℕ → ℂ) (k : ℕ) : ℂ := std (o.ord n k)

theorem inOrder_roots {o : Order} {n : ℕ} {std : ℕ → ℂ} (h : Roots n std) : Roots n (inOrder o n std) := by
  refine ⟨fun k hk => h.1 _ (o.ord_lt hk), fun k k' hk hk' e => ?_⟩
  have := h.2 _ _ (o.ord_lt hk) (o.ord_lt hk') e
  rw [← o.inv_ord hk, this, o.inv_ord hk']

theorem FwdOut.reorder {n : ℕ} {κ β : ℝ} {f : List C64} {std z : ℕ → ℂ} (o o' : Order)
    (h : FwdOut n κ β f (dft n (inOrder o n std) z)) :
    FwdOut n κ β (reorderC o o' n f) (dft n (inOrder o' n std) z) := by
  have e : ∀ k, k < n → dft n (inOrder o' n std) z k = dft n (inOrder o n std) z (o.inv n (o'.ord n k)) := by
    intro k hk
    unfold dft inOrder
    rw [o.ord_inv (o'.ord_lt hk)]
  refine ⟨by simp [reorderC], fun k hk => ?_, ?_, ?_⟩
  · rw [reorderC, at_map _ hk]
    exact h.fin _ (o.inv_lt (o'.ord_lt hk))
  · have := h.err
    rw [← l2_perm o o'] at this
    rw [l2_congr (g := fun k => vals f (o.inv n (o'.ord n k)) - dft n (inOrder o n std) z (o.inv n (o'.ord n k)))]
    · exact this
    · intro k hk
      rw [e k hk, vals, reorderC, at_map _ hk, vals]
  · rw [l2_congr e, l2_perm o o']
    exact h.bound

theorem keyOf_reorder (o o' : Order) (n : ℕ) (hn : 0 < n) (count : ℕ) (data : List Serde.C64) (hd : data.length = count * n) :
    keyOf n ((chunks n data).flatMap (Serde.reorder o o' n)) =
      (keyOf n data).map (Option.map (reorderC o o' n)) := by
  rw [keyOf, Serde.chunks_reorder o o' n hn, keyOf, List.map_map, List.map_map]
  apply List.map_congr_left
  intro b hb
  have hlen : b.length = n := by
    rw [chunks_eq _ hn _ _ hd, List.mem_map] at hb
    obtain ⟨i, hi, rfl⟩ := hb
    rw [List.mem_range] at hi
    have : (i + 1) * n ≤ count * n := Nat.mul_le_mul_right _ (by omega)
    rw [Nat.add_mul] at this
    simp only [block, List.length_take, List.length_drop, hd]
    omega
  simp only [Function.comp_apply, Option.map_some, Option.some.injEq, Serde.reorder, reorderC, List.map_map]
  apply List.map_congr_left
  intro k hk
  have hj := o.inv_lt (o'.ord_lt (n := n) (List.mem_range.1 hk))
  simp only [Function.comp_apply, at', List.getD_eq_getElem?_getD, List.getElem?_map]
  rw [List.getElem?_eq_getElem (by omega)]
  rfl

/-- Products with the keys of another machine. -/
theorem transferred_accurate (hw : w = 32 ∨ w = 64) (n : ℕ) (hn0 : 0 < n) (h8 : 8 ∣ n) (hn : n ≤ 2 ^ 40) (o o' : Order)
    (std : ℕ → ℂ) (hstd : Roots n std) (ε : ℝ) (hε : 0 ≤ ε)
    (plan : Plan) (hfwd : FwdOk n plan (inOrder o n std) ε) (tw : List C64) (ht : TwistAccurate n tw)
    (c' : Cpu) (hcpu : w = 64 → backwardIsa 64 c' ≠ .avx512) (plan' : Plan) (hfwd' : FwdOk n plan' (inOrder o' n std) ε)
    (hinv' : InvOk n plan' (inOrder o' n std) ε) (tw' : List C64) (ht' : TwistAccurate n tw') (M : ℕ)
    (D : ℤ) (hD : 1 ≤ D) (hD2 : D ≤ 2 ^ 64) (hκ : ε + (M + 1) / 2 ^ 48 ≤ 1 / 100) (B : ℤ)
    (hB : 2 ^ w * (16 * (ε + (M + 1) / 2 ^ 48) * M * D * (2 * n)) + 2 ≤ (B : ℝ)) :
    (withKeys w c' plan' tw' fun p => reorderC o o' n (forwardAsTorus plan tw p)).Accurate (2 * n) M D B := by
  intro out ps ho hM hps
  have h := fft_signed_with hw n hn0 h8 hn c' plan' _ ε hε (inOrder_roots hstd) hfwd' hinv' tw' ht' (fun p => reorderC o o' n (forwardAsTorus plan tw p)) M
    (fun p hp => (torus_fwd (consts_of n hn0 hn ε hε M hκ) (inOrder_roots hstd) hfwd (by omega) tw ht p hp).reorder o o')
    D hD hD2 hκ B hB out ps ho hM hps
  rw [backSign_eq_one hcpu, Int.cast_one, one_mul] at h
  exact h

end Verif.Fft
