import Verif.Cuda.NsmLemmas
import Verif.Cuda.NsmTwiddle
import Verif.Fft.Eval
/-
C82: the Fourier transform of the GPU. For every interleaving of the accesses of the threads of a block it computes
one function of the array; on exact complex numbers this function evaluates at the solutions of `x^n = i`, its inverse
is the inverse transform of the GPU, and products of values are negacyclic products of polynomials. The table of
literals of the source holds the roots that are needed, up to `4 * 10^-16`.
-/
namespace Verif.Cuda.Nsm
open Grid Finset Verif.Fft Verif.Poly

/-- `T` threads that execute `prog` from memory `m` and any registers: however the threads have moved so far, they
can all reach the end, and whenever they all have, the memory is `m'`. -/
def Computes {V : Type} {T : Nat} (prog : Fin T → Prog Nat V (Regs V)) (m m' : Nat → V) : Prop :=
  ∀ x : Fin T → Regs V,
    (∀ moved : List (Fin T), ∃ more, Done prog (run prog (moved ++ more) (start prog m x))) ∧
    ∀ moved : List (Fin T), Done prog (run prog moved (start prog m x)) → (run prog moved (start prog m x)).mem = m'

theorem computes_segs {V : Type} {T : Nat} (ops : Ops V) (tw : Nat → V) (K c : Nat) (hT : 0 < T)
    (hn : 2 ^ (K + 1) = 2 * (T * c)) (xs : List Seg) (hx : ∀ s ∈ xs, s.Ok (K + 1)) (prog : Fin T → Prog Nat V (Regs V))
    (hprog : ∀ b : Fin T, prog b = xs.map (fun s => s.code ops tw (2 ^ (K + 1)) T c b) ++ [[]]) (m : Nat → V) :
    Computes prog m fun p =>
      if p < 2 ^ (K + 1) then xs.foldl (fun A s => s.effect ops tw (2 ^ (K + 1)) A) m p else m p := by
  have : Nonempty (Fin T) := ⟨⟨0, hT⟩⟩
  refine fun x => ⟨can_finish _ (xs.length + 1) (fun t => by rw [hprog]; simp) (by omega) m x, fun moved hd => ?_⟩
  funext p
  exact run_segs ops tw K c hT hn xs hx prog hprog m x moved hd p

/-- C82: whatever the arithmetic, the interleaving and the number of threads (`T`, each with `c` butterflies by level),
the direct transform replaces the `n` elements of the array by their transform, level after level, and touches nothing
else. -/
theorem C82_direct_threads {V : Type} (ops : Ops V) (tw : Nat → V) (K T c : Nat) (hT : 0 < T)
    (hn : 2 ^ (K + 1) = 2 * (T * c)) (m : Nat → V) :
    Computes (directProg ops tw (2 ^ (K + 1)) T c) m fun p =>
      if p < 2 ^ (K + 1) then direct ops tw (2 ^ (K + 1)) m p else m p := by
  rw [← direct_segs]
  exact computes_segs ops tw K c hT hn _ (directSegs_ok K) _ (directProg_eq ops tw _ T c) m

/-- C82: the same of the inverse transform. -/
theorem C82_inverse_threads {V : Type} (ops : Ops V) (tw : Nat → V) (K T c : Nat) (hT : 0 < T)
    (hn : 2 ^ (K + 1) = 2 * (T * c)) (m : Nat → V) :
    Computes (inverseProg ops tw (2 ^ (K + 1)) T c) m fun p =>
      if p < 2 ^ (K + 1) then inverse ops tw (2 ^ (K + 1)) m p else m p := by
  rw [← inverse_segs]
  exact computes_segs ops tw K c hT hn _ (inverseSegs_ok K) _ (inverseProg_eq ops tw _ T c) m

/-- The hypotheses hold of the 1024 elements that 128 threads transform for polynomials of 2048 coefficients. -/
example : (0 < 128) ∧ 2 ^ (9 + 1) = 2 * (128 * 4) := by decide

/-- Two threads transform four elements; the arithmetic records which elements were combined. -/
example : ((List.range 4).map (inverse (V := List Nat)
      { first := fun _ a b => (a ++ b, b ++ a), fwd := fun _ _ w a b => (w ++ a, w ++ b),
        inv := fun _ _ w a b => (a ++ b, w ++ a), scale := fun n _ a => n :: a } (fun h => [100 + h]) 4 fun p => [p])) =
    [[4, 0, 4, 1, 4, 2, 4, 3], [102, 4, 0, 103, 4, 2], [101, 4, 0, 4, 1], [101, 102, 4, 0]] := by
  rw [inverse, show (4 : Nat) = 2 ^ 2 from rfl, invLevels_pow]
  decide +kernel

/-- C82: on exact complex numbers the direct transform of `n` elements leaves at place `p` the value at the point
`point n p` of the polynomial whose coefficients were the elements; the points are the `n` solutions of `x^n = i`. -/
theorem C82_direct_values (K T c : Nat) (hT : 0 < T) (hn : 2 ^ (K + 1) = 2 * (T * c)) (a : Nat → ℂ) :
    (Computes (directProg (cOps (2 ^ (K + 1))) rootW (2 ^ (K + 1)) T c) a fun p =>
      if p < 2 ^ (K + 1) then ∑ q ∈ range (2 ^ (K + 1)), a q * point (2 ^ (K + 1)) p ^ q else a p) ∧
    (∀ p, p < 2 ^ (K + 1) → point (2 ^ (K + 1)) p ^ 2 ^ (K + 1) = Complex.I) ∧
    (∀ p q, p < 2 ^ (K + 1) → q < 2 ^ (K + 1) → point (2 ^ (K + 1)) p = point (2 ^ (K + 1)) q → p = q) ∧
    ∀ x : ℂ, x ^ 2 ^ (K + 1) = Complex.I → ∃ p, p < 2 ^ (K + 1) ∧ x = point (2 ^ (K + 1)) p := by
  refine ⟨?_, fun p hp => point_pow (K + 1) p hp, fun p q hp hq h => pts_inj (K + 1) p q hp hq h, fun x hx => ?_⟩
  · have h := C82_direct_threads (cOps (2 ^ (K + 1))) rootW K T c hT hn a
    convert h using 2 with p
    split
    · rename_i hp
      rw [cOps_eq, direct_exact Complex.I rootW _ _ K (fun h h0 _ => rootW_sq h h0) a p hp]; rfl
    · rfl
  · -- a polynomial of degree `n` has at most `n` roots
    classical
    let S : Finset ℂ := (range (2 ^ (K + 1))).image (point (2 ^ (K + 1)))
    have hS : S.card = 2 ^ (K + 1) := by
      rw [card_image_of_injOn, card_range]
      intro p hp q hq h
      exact pts_inj (K + 1) p q (mem_range.1 hp) (mem_range.1 hq) h
    by_contra hc
    have hxS : x ∉ S := by
      intro hm
      obtain ⟨p, hp, rfl⟩ := mem_image.1 hm
      exact hc ⟨p, mem_range.1 hp, rfl⟩
    have hle : (insert x S).card ≤ (Polynomial.nthRoots (2 ^ (K + 1)) Complex.I).toFinset.card := by
      refine card_le_card fun y hy => ?_
      rw [Multiset.mem_toFinset, Polynomial.mem_nthRoots (Nat.two_pow_pos _)]
      rcases mem_insert.1 hy with rfl | hy
      · exact hx
      · obtain ⟨p, hp, rfl⟩ := mem_image.1 hy
        exact point_pow (K + 1) p (mem_range.1 hp)
    have h2 := (Multiset.toFinset_card_le (Polynomial.nthRoots (2 ^ (K + 1)) Complex.I)).trans
      (Polynomial.card_nthRoots _ _)
    rw [card_insert_of_notMem hxS, hS] at hle
    omega

/-- C82: on exact complex numbers the inverse transform undoes the direct one. -/
theorem C82_roundtrip (K : Nat) (a : Nat → ℂ) (j : Nat) (hj : j < 2 ^ (K + 1)) :
    inverse (cOps (2 ^ (K + 1))) rootW (2 ^ (K + 1)) (direct (cOps (2 ^ (K + 1))) rootW (2 ^ (K + 1)) a) j = a j := by
  rw [inverse_idft (K + 1) _ j hj]
  have e : idft (2 ^ (K + 1)) (rho (2 ^ (K + 1))) (direct (cOps (2 ^ (K + 1))) rootW (2 ^ (K + 1)) a) j =
      idft (2 ^ (K + 1)) (rho (2 ^ (K + 1))) (dft (2 ^ (K + 1)) (rho (2 ^ (K + 1)))
        fun j => a j * xi (2 ^ (K + 1)) ^ j) j := by
    unfold idft
    refine sum_congr rfl fun p hp => ?_
    rw [direct_dft K a p (mem_range.1 hp)]
  rw [e, (rho_roots (K + 1)).idft_dft _ hj]
  have hne : ((2 ^ (K + 1) : ℕ) : ℂ) ≠ 0 := Nat.cast_ne_zero.2 (Nat.two_pow_pos _).ne'
  rw [mul_div_assoc, mul_div_cancel_left₀ _ hne, mul_comm, mul_assoc, ← mul_pow, mul_inv_cancel₀ (xi_ne _), one_pow,
    mul_one]

/-- The array that holds a polynomial of `2 n` integers: coefficient `j` is the real part of element `j`, coefficient
`n + j` its imaginary part. -/
noncomputable def packPoly (n : Nat) (p : List ℤ) (j : Nat) : ℂ := (p.getD j 0 : ℂ) + (p.getD (n + j) 0 : ℂ) * Complex.I

/-- C82: on exact complex numbers, the inverse transform of the sum of the products of the transforms of polynomials
of `2 n` integers holds the sum of their negacyclic products (modulo `X^(2n) + 1`). -/
theorem C82_products (K : Nat) (zs : List (List ℤ × List ℤ))
    (hz : ∀ x ∈ zs, x.1.length = 2 * 2 ^ (K + 1) ∧ x.2.length = 2 * 2 ^ (K + 1)) (j : Nat) (hj : j < 2 ^ (K + 1)) :
    inverse (cOps (2 ^ (K + 1))) rootW (2 ^ (K + 1)) (fun p => (zs.map fun x =>
      direct (cOps (2 ^ (K + 1))) rootW (2 ^ (K + 1)) (packPoly (2 ^ (K + 1)) x.1) p *
      direct (cOps (2 ^ (K + 1))) rootW (2 ^ (K + 1)) (packPoly (2 ^ (K + 1)) x.2) p).sum) j =
    (((zs.map fun x => negaConv (2 * 2 ^ (K + 1)) x.1 x.2 j).sum : ℤ) : ℂ) +
      (((zs.map fun x => negaConv (2 * 2 ^ (K + 1)) x.1 x.2 (2 ^ (K + 1) + j)).sum : ℤ) : ℂ) * Complex.I := by
  have hp : ∀ p : List ℤ, (fun j => packPoly (2 ^ (K + 1)) p j * xi (2 ^ (K + 1)) ^ j) =
      pack 1 (2 ^ (K + 1)) (xi (2 ^ (K + 1))) p := by
    intro p; funext j; rw [packPoly, pack, Complex.ofReal_one, one_mul]
  rw [inverse_idft (K + 1) _ j hj]
  have e : idft (2 ^ (K + 1)) (rho (2 ^ (K + 1))) (fun p => (zs.map fun x =>
      direct (cOps (2 ^ (K + 1))) rootW (2 ^ (K + 1)) (packPoly (2 ^ (K + 1)) x.1) p *
      direct (cOps (2 ^ (K + 1))) rootW (2 ^ (K + 1)) (packPoly (2 ^ (K + 1)) x.2) p).sum) j =
      idft (2 ^ (K + 1)) (rho (2 ^ (K + 1))) (fun k => (zs.map fun x =>
        dft (2 ^ (K + 1)) (rho (2 ^ (K + 1))) (pack 1 (2 ^ (K + 1)) (xi (2 ^ (K + 1))) x.1) k *
        dft (2 ^ (K + 1)) (rho (2 ^ (K + 1))) (pack 1 (2 ^ (K + 1)) (xi (2 ^ (K + 1))) x.2) k).sum) j := by
    unfold idft
    refine sum_congr rfl fun p h => ?_
    beta_reduce
    congr 2
    refine List.map_congr_left fun x _ => ?_
    rw [direct_dft K _ p (mem_range.1 h), direct_dft K _ p (mem_range.1 h), hp, hp]
  rw [e, idft_products (Nat.two_pow_pos _) (rho_roots (K + 1)) 1 (xi (2 ^ (K + 1))) (xi_pow (K + 1)) zs hz hj]
  have hne : ((2 ^ (K + 1) : ℕ) : ℂ) ≠ 0 := Nat.cast_ne_zero.2 (Nat.two_pow_pos _).ne'
  rw [mul_div_assoc, mul_div_cancel_left₀ _ hne, Complex.ofReal_one, one_mul, mul_comm, mul_assoc, ← mul_pow,
    mul_inv_cancel₀ (xi_ne _), one_pow, mul_one]
  rfl

/-- The hypothesis of `C82_products` holds of `X^3 * X`, whose product modulo `X^4 + 1` is `-1`. -/
example : (∀ x ∈ [(([0, 0, 0, 1] : List ℤ), ([0, 1, 0, 0] : List ℤ))],
      x.1.length = 2 * 2 ^ (0 + 1) ∧ x.2.length = 2 * 2 ^ (0 + 1)) ∧
    ((List.range 4).map (negaConv (2 * 2 ^ (0 + 1)) ([0, 0, 0, 1] : List ℤ) [0, 1, 0, 0])) = [-1, 0, 0, 0] := by
  decide +kernel

/-- C82: every element of the table that the transforms of at most 4096 elements read (polynomials of at most 8192
coefficients) is the root that the exact transform reads at its place, up to `4 * 10^-16`. `(t, m)` are the values of
the variables of the source at a level, `tid` the number of a butterfly. -/
theorem C82_table (K : Nat) (hK : K + 1 ≤ 12) (t m tid : Nat)
    (hl : (t, m) ∈ fwdLevels (2 ^ (K + 1) / 2) 1 ∨ (t, m) ∈ invLevels (2 ^ (K + 1)) 1) (ht : tid < 2 ^ K) :
    tid / t + m < negtwiddles.length ∧ ‖litVal (tid / t + m) - rootW (tid / t + m)‖ ≤ 4 / 10 ^ 16 := by
  have key : ∀ j, j ≤ K → t = 2 ^ (K - j) → m = 2 ^ j →
      tid / t + m < negtwiddles.length ∧ ‖litVal (tid / t + m) - rootW (tid / t + m)‖ ≤ 4 / 10 ^ 16 := by
    intro j hj e1 e2
    have h1 : tid / t < 2 ^ j := by
      rw [e1, Nat.div_lt_iff_lt_mul (Nat.two_pow_pos _), ← pow_add, show j + (K - j) = K by omega]
      exact ht
    generalize tid / t = q at h1 ⊢
    have h2 : q + m < 2 ^ (j + 1) := by rw [e2, pow_succ]; omega
    have h3 : 2 ^ (j + 1) ≤ 2 ^ 12 := Nat.pow_le_pow_right (by omega) (by omega)
    have h4 : 0 < m := by rw [e2]; exact Nat.two_pow_pos j
    have h5 : (2 : Nat) ^ 12 = 4096 := by norm_num
    exact ⟨by rw [table_first.1]; omega, (table_close _ (by omega) (by omega)).1⟩
  rcases hl with hl | hl
  · rw [show 2 ^ (K + 1) / 2 = 2 ^ K by rw [Nat.pow_succ]; omega, fwdLevels_pow] at hl
    obtain ⟨s, hs, he⟩ := List.mem_map.1 hl
    have hs := List.mem_range.1 hs
    exact key (s + 1) (by omega) (by rw [← (Prod.mk.inj he).1]; congr 1; omega) (by rw [← (Prod.mk.inj he).2, mul_one])
  · rw [invLevels_pow] at hl
    obtain ⟨s, hs, he⟩ := List.mem_map.1 hl
    have hs := List.mem_range.1 hs
    exact key (K - s) (by omega) (by rw [← (Prod.mk.inj he).1, mul_one]; congr 1; omega)
      (by rw [← (Prod.mk.inj he).2]; congr 1)

/-- A level of the transform of eight elements, and one of its butterflies. -/
example : (2, 2) ∈ fwdLevels (2 ^ (2 + 1) / 2) 1 ∧ (2, 2) ∈ invLevels (2 ^ (2 + 1)) 1 ∧ 3 < 2 ^ 2 ∧ 3 / 2 + 2 = 3 := by
  simp [fwdLevels, invLevels]

end Verif.Cuda.Nsm
