import Verif.Wop.Spec
import Verif.Pbs.Props2
/-
The CMUX tree: the binary counter of full layers.
-/
namespace Verif.Wop
open Verif Verif.Poly Verif.Glwe Verif.Pbs

variable {w : Nat} {G : Type}

/-- The layers from `j` on, after `c` nodes of layer `j` have been computed: the counters are the bits of
`c`, and a half-full layer holds its last node. -/
def Counter (Q : Nat → Nat → List (BitVec w) → Prop) : Nat → Nat → List (Layer w) → Prop
  | _, _, [] => True
  | j, c, L :: Ls => L.fill = c % 2 ∧ (c % 2 = 1 → Q j (c - 1) L.t0) ∧ Counter Q (j + 1) (c / 2) Ls

theorem treeCarry_head (ep : G → List (BitVec w) → List (BitVec w) → List (BitVec w)) :
    ∀ (gs : List G) (L : Layer w) (Ls : List (Layer w)) (out : List (BitVec w)),
    ∃ L' Ls', (treeCarry ep gs (L :: Ls) out).1 = L' :: Ls' ∧ L'.t0 = L.t0 ∧ L'.t1 = L.t1
  | [], L, Ls, out => ⟨L, Ls, by simp [treeCarry]⟩
  | g :: gs, L, [], out => by
    simp only [treeCarry]
    split <;> exact ⟨L, [], rfl, rfl, rfl⟩
  | g :: gs, L, L' :: Ls, out => by
    simp only [treeCarry]
    split
    · exact ⟨_, _, rfl, rfl, rfl⟩
    · exact ⟨L, _, rfl, rfl, rfl⟩

theorem treeCarry_stop (ep : G → List (BitVec w) → List (BitVec w) → List (BitVec w)) (gs : List G) (L : Layer w)
    (Ls : List (Layer w)) (out : List (BitVec w)) (h : L.fill ≠ 2) : treeCarry ep gs (L :: Ls) out = (L :: Ls, out) := by
  cases gs with
  | nil => simp [treeCarry]
  | cons g gs =>
    cases Ls with
    | nil => simp [treeCarry, h]
    | cons L' Ls => simp [treeCarry, h]

theorem treeCarry_spec (ep : G → List (BitVec w) → List (BitVec w) → List (BitVec w))
    (Q : Nat → Nat → List (BitVec w) → Prop) : ∀ (gs : List G) (j m : Nat) (L : Layer w) (Ls : List (Layer w))
    (out : List (BitVec w)),
    (∀ i g, gs[i]? = some g → ∀ m c0 c1, Q (j + i) (2 * m) c0 → Q (j + i) (2 * m + 1) c1 →
      Q (j + i + 1) m (ep g c0 (List.zipWith (fun a b => a - b) c1 c0))) →
    gs.length = Ls.length + 1 → L.fill = 2 → Q j (2 * m) L.t0 → Q j (2 * m + 1) L.t1 → Counter Q (j + 1) m Ls →
    2 * m + 2 ≤ 2 ^ gs.length →
    (treeCarry ep gs (L :: Ls) out).1.length = gs.length ∧
    (2 * m + 2 < 2 ^ gs.length → Counter Q j (2 * m + 2) (treeCarry ep gs (L :: Ls) out).1) ∧
    (2 * m + 2 = 2 ^ gs.length → Q (j + gs.length) 0 (treeCarry ep gs (L :: Ls) out).2)
  | [], j, m, L, Ls, out, _, hl, _, _, _, _, _ => by simp at hl
  | [g], j, m, L, Ls, out, hstep, hl, hf, h0, h1, _, hm => by
    have hLs : Ls = [] := by simpa using hl.symm
    subst hLs
    have hm0 : m = 0 := by simp at hm; omega
    subst hm0
    simp only [treeCarry, hf, if_true, List.length_cons, List.length_nil]
    refine ⟨trivial, by norm_num, fun _ => ?_⟩
    have := hstep 0 g rfl 0 L.t0 L.t1 (by simpa using h0) (by simpa using h1)
    simpa using this
  | g :: g' :: gs, j, m, L, [], out, hstep, hl, hf, h0, h1, hc, hm => by simp at hl
  | g :: g' :: gs, j, m, L, L' :: Ls, out, hstep, hl, hf, h0, h1, hc, hm => by
    have hr := hstep 0 g rfl m L.t0 L.t1 (by simpa using h0) (by simpa using h1)
    simp only [Nat.add_zero] at hr
    obtain ⟨c1, c2, c3⟩ := hc
    have hlen : (g :: g' :: gs).length = (g' :: gs).length + 1 := rfl
    rw [hlen, pow_succ] at hm
    rw [hlen, pow_succ]
    rcases Nat.mod_two_eq_zero_or_one m with h | h
    · rw [h] at c1
      simp only [treeCarry, hf, if_true, c1]
      rw [treeCarry_stop _ _ _ _ _ (by simp)]
      have hev : m + 1 ≠ 2 ^ (g' :: gs).length := by
        rw [List.length_cons, pow_succ]; omega
      refine ⟨by simpa using hl.symm, fun _ => ⟨?_, ?_, ?_, ?_, ?_⟩, fun h' => absurd h' (by omega)⟩
      · simp
      · intro h'; omega
      · simp only; omega
      · intro _
        have : (2 * m + 2) / 2 - 1 = m := by omega
        rw [this]; exact hr
      · have : (2 * m + 2) / 2 / 2 = m / 2 := by omega
        rw [this]; exact c3
    · rw [h] at c1
      simp only [treeCarry, hf, if_true, c1]
      rw [if_neg (by norm_num)]
      obtain ⟨r1, r2, r3⟩ := treeCarry_spec ep Q (g' :: gs) (j + 1) (m / 2)
        { L' with t1 := ep g L.t0 (List.zipWith (fun a b => a - b) L.t1 L.t0), fill := 1 + 1 } Ls out
        (fun i g h => by
          have := hstep (i + 1) g (by simpa using h)
          rwa [show j + (i + 1) = j + 1 + i by omega] at this)
        (by simpa using hl) rfl
        (by have := c2 h; rwa [show m - 1 = 2 * (m / 2) by omega] at this)
        (by rwa [show 2 * (m / 2) + 1 = m by omega])
        c3 (by omega)
      have e : 2 * (m / 2) + 2 = m + 1 := by omega
      rw [e] at r2 r3
      refine ⟨by simp [r1], fun h' => ⟨?_, ?_, ?_⟩, fun h' => ?_⟩
      · simp
      · intro h'; omega
      · have : (2 * m + 2) / 2 = m + 1 := by omega
        rw [this]; exact r2 (by omega)
      · have := r3 (by omega)
        rwa [show j + 1 + (g' :: gs).length = j + ((g' :: gs).length + 1) by omega] at this

/-- A ciphertext with a zero mask. -/
def Blank (N k : Nat) (ct : List (BitVec w)) : Prop :=
  ct.length = (k + 1) * N ∧ maskOf N ct = List.replicate (k * N) 0

theorem setBody_eq (N k : Nat) (ct p : List (BitVec w)) (h : Blank N k ct) (hp : p.length = N) :
    setBody N ct p = List.replicate (k * N) 0 ++ p := by
  have hb : (bodyOf N ct).length = N := by
    have : N ≤ (k + 1) * N := Nat.le_mul_of_pos_left _ (by omega)
    rw [bodyOf, List.length_drop, h.1]; omega
  rw [setBody, h.2]
  congr 1
  apply List.ext_getElem?
  intro i
  rw [zipUpdate_getElem?]
  by_cases hi : i < N
  · rw [List.getElem?_eq_getElem (by omega : i < (bodyOf N ct).length), List.getElem?_eq_getElem (by omega : i < p.length)]
  · rw [List.getElem?_eq_none (by omega : (bodyOf N ct).length ≤ i), List.getElem?_eq_none (by omega : p.length ≤ i)]

theorem blank_append (N k : Nat) (p : List (BitVec w)) (hp : p.length = N) :
    Blank N k (List.replicate (k * N) 0 ++ p) := by
  refine ⟨by rw [List.length_append, List.length_replicate, hp]; ring, ?_⟩
  rw [maskOf, List.length_append, List.length_replicate, hp, Nat.add_sub_cancel]
  exact List.take_left' (by simp)

theorem treeLoop_spec (ep : G → List (BitVec w) → List (BitVec w) → List (BitVec w)) (N k : Nat)
    (Q : Nat → Nat → List (BitVec w) → Prop) (gs : List G) (hgs : 0 < gs.length)
    (hstep : ∀ i g, gs[i]? = some g → ∀ m c0 c1, Q i (2 * m) c0 → Q i (2 * m + 1) c1 →
      Q (i + 1) m (ep g c0 (List.zipWith (fun a b => a - b) c1 c0))) :
    ∀ (n : Nat) (luts : List (List (BitVec w))) (p : Nat) (L : Layer w) (Ls : List (Layer w)) (out : List (BitVec w)),
    luts.length = 2 * (n + 1) → 2 * p + luts.length = 2 ^ gs.length →
    (∀ x ∈ luts, x.length = N) →
    (∀ i x, luts[i]? = some x → Q 0 (2 * p + i) (List.replicate (k * N) 0 ++ x)) →
    Blank N k L.t0 → Blank N k L.t1 → Ls.length + 1 = gs.length → Counter Q 0 (2 * p) (L :: Ls) →
    Q gs.length 0 (treeLoop ep N gs luts (L :: Ls) out)
  | n, [], p, L, Ls, out, h, _, _, _, _, _, _, _ => by simp at h
  | n, [x], p, L, Ls, out, h, _, _, _, _, _, _, _ => by simp at h; omega
  | n, x :: y :: luts, p, L, Ls, out, hn, hp, hx, hbase, b0, b1, hl, hc => by
    have hxl := hx x (by simp)
    have hyl := hx y (by simp)
    simp only [treeLoop]
    rw [setBody_eq N k _ x b0 hxl, setBody_eq N k _ y b1 hyl]
    simp only [List.length_cons] at hn hp
    obtain ⟨r1, r2, r3⟩ := treeCarry_spec ep Q gs 0 p
      { t0 := List.replicate (k * N) 0 ++ x, t1 := List.replicate (k * N) 0 ++ y, fill := 2 } Ls out
      (by simpa using hstep) hl.symm rfl (by simpa using hbase 0 x rfl) (by simpa using hbase 1 y rfl)
      (by have := hc.2.2; rwa [show 2 * p / 2 = p by omega] at this) (by omega)
    obtain ⟨L', Ls', e1, e2, e3⟩ := treeCarry_head ep gs
      { t0 := List.replicate (k * N) 0 ++ x, t1 := List.replicate (k * N) 0 ++ y, fill := 2 } Ls out
    rw [e1] at r1 r2
    rw [e1]
    cases n with
    | zero =>
      have : luts = [] := List.eq_nil_of_length_eq_zero (by omega)
      subst this
      simp only [treeLoop]
      simp only [Nat.zero_add] at r3
      exact r3 (by simp at hp; omega)
    | succ n =>
      refine treeLoop_spec ep N k Q gs hgs hstep n luts (p + 1) L' Ls' _ (by omega) (by omega)
        (fun z hz => hx z (by simp [hz])) (fun i z hz => ?_) (by rw [e2]; exact blank_append N k x hxl)
        (by rw [e3]; exact blank_append N k y hyl) (by simpa using r1) ?_
      · have := hbase (i + 2) z (by simpa using hz)
        rwa [show 2 * p + (i + 2) = 2 * (p + 1) + i by omega] at this
      · have := r2 (by omega)
        rwa [show 2 * p + 2 = 2 * (p + 1) by omega] at this

theorem counter_zero (Q : Nat → Nat → List (BitVec w) → Prop) (t0 t1 : List (BitVec w)) : ∀ (n j : Nat),
    Counter Q j 0 (List.replicate n { t0 := t0, t1 := t1, fill := 0 })
  | 0, _ => trivial
  | n + 1, j => ⟨rfl, fun h => by omega, counter_zero Q t0 t1 n (j + 1)⟩

end Verif.Wop
