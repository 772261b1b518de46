import Verif.Cuda.VpLemmas
/-
The CMUX tree and the blind rotation of CUDA, for any correct CMUX.
-/
namespace Verif.Cuda.Vp
open Verif.Pbs Verif.Poly Verif.Glwe Verif.Decomp Verif.Wop

variable {w : Nat}

theorem block_take (n m i : Nat) (x : List (BitVec w)) (h : i < m) : block n (x.take (m * n)) i = block n x i := by
  have : i * n + n ≤ m * n := by rw [← Nat.succ_mul]; exact Nat.mul_le_mul_right _ h
  rw [block, block, List.drop_take, List.take_take]
  congr 1; omega

theorem block_drop (n m i : Nat) (x : List (BitVec w)) : block n (x.drop (m * n)) i = block n x (m + i) := by
  rw [block, block, List.drop_drop, Nat.add_mul]

/-- The buffer holding the ciphertexts after `j` layers. -/
def cur (j : Nat) (s : (Nat → List (BitVec w)) × (Nat → List (BitVec w))) : Nat → List (BitVec w) :=
  if j % 2 = 0 then s.1 else s.2

/-- The layers: after `j` of them, ciphertext `i` of each tree is the entry of its subtree spelled by the first `j`
bits, the first one being the least significant. -/
theorem layers_spec (cm : Nat → List (BitVec w) → List (BitVec w) → List (BitVec w)) (N k r tau : Nat)
    (key : List (BitVec w)) (C : Int) (bits : List Bool) (hb : r ≤ bits.length)
    (hcm : ∀ i, i < r → ∀ c0 c1, CtFits N k c0 → CtFits N k c1 → CtFits N k (cm i c0 c1) ∧
      ∃ e : Rq (BitVec w) N, Small N C e ∧ glwePhase N k key (cm i c0 c1) =
        (if bits.getD i false then glwePhase N k key c1 else glwePhase N k key c0) + e)
    (bufs : (Nat → List (BitVec w)) × (Nat → List (BitVec w))) (v : Nat → Rq (BitVec w) N)
    (h0 : ∀ i, i < 2 ^ r * tau → CtFits N k (bufs.1 i) ∧ glwePhase N k key (bufs.1 i) = v i) :
    ∀ j, j ≤ r → ∀ t, t < tau → ∀ i, i < 2 ^ (r - j) →
      let s := (List.range j).foldl (fun s i =>
        if i % 2 = 1 then (layer (cm i) (2 ^ r) tau (2 ^ (r - 1 - i)) s.2 s.1, s.2)
        else (s.1, layer (cm i) (2 ^ r) tau (2 ^ (r - 1 - i)) s.1 s.2)) bufs
      CtFits N k (cur j s (t * 2 ^ r + i)) ∧ ∃ e : Rq (BitVec w) N, Small N (j * C) e ∧
        glwePhase N k key (cur j s (t * 2 ^ r + i)) =
          v (t * 2 ^ r + (i * 2 ^ j + indexOf (bits.take j).reverse)) + e := by
  intro j
  induction j with
  | zero =>
    intro _ t ht i hi
    have hlt : t * 2 ^ r + i < 2 ^ r * tau := by
      have : (t + 1) * 2 ^ r ≤ tau * 2 ^ r := Nat.mul_le_mul_right _ ht
      rw [Nat.sub_zero] at hi
      rw [Nat.mul_comm (2 ^ r)]
      rw [Nat.add_mul, Nat.one_mul] at this
      omega
    obtain ⟨a1, a2⟩ := h0 _ hlt
    refine ⟨a1, 0, small_zero N _ (by simp), ?_⟩
    show glwePhase N k key (bufs.1 _) = _
    rw [a2]
    simp [indexOf]
  | succ j ih =>
    intro hj t ht i hi
    have hi2 : 2 ^ (r - j) = 2 * 2 ^ (r - (j + 1)) := by rw [← pow_succ']; congr 1; omega
    have hile : 2 ^ (r - j) ≤ 2 ^ r := Nat.pow_le_pow_right (by norm_num) (by omega)
    simp only [List.range_succ, List.foldl_append, List.foldl_cons, List.foldl_nil]
    generalize hs : (List.range j).foldl (fun s i =>
        if i % 2 = 1 then (layer (cm i) (2 ^ r) tau (2 ^ (r - 1 - i)) s.2 s.1, s.2)
        else (s.1, layer (cm i) (2 ^ r) tau (2 ^ (r - 1 - i)) s.1 s.2)) bufs = s
    have ih' := ih (by omega) t ht
    simp only [hs] at ih'
    obtain ⟨f0, e0, s0, p0⟩ := ih' (2 * i) (by omega)
    obtain ⟨f1, e1, s1, p1⟩ := ih' (2 * i + 1) (by omega)
    obtain ⟨a1, e, a2, a3⟩ := hcm j (by omega) _ _ f0 f1
    have hcur : cur (j + 1) (if j % 2 = 1 then (layer (cm j) (2 ^ r) tau (2 ^ (r - 1 - j)) s.2 s.1, s.2)
        else (s.1, layer (cm j) (2 ^ r) tau (2 ^ (r - 1 - j)) s.1 s.2)) (t * 2 ^ r + i) =
        cm j (cur j s (t * 2 ^ r + 2 * i)) (cur j s (t * 2 ^ r + (2 * i + 1))) := by
      have hd : (t * 2 ^ r + i) / 2 ^ r = t := by
        rw [Nat.mul_comm, Nat.mul_add_div (by positivity), Nat.div_eq_of_lt (by omega), Nat.add_zero]
      have hm : (t * 2 ^ r + i) % 2 ^ r = i := by
        rw [Nat.mul_comm, Nat.mul_add_mod, Nat.mod_eq_of_lt (by omega)]
      have hcond : (t * 2 ^ r + i) / 2 ^ r < tau ∧ (t * 2 ^ r + i) % 2 ^ r < 2 ^ (r - 1 - j) := by
        rw [hd, hm]; exact ⟨ht, by rwa [show r - 1 - j = r - (j + 1) by omega]⟩
      rcases Nat.mod_two_eq_zero_or_one j with h | h
      · rw [if_neg (by omega), cur, if_neg (by omega), cur, if_pos h]
        simp only [layer]
        rw [if_pos hcond, hd, hm]
      · rw [if_pos h, cur, if_pos (by omega), cur, if_neg (by omega)]
        simp only [layer]
        rw [if_pos hcond, hd, hm]
    rw [hcur]
    refine ⟨a1, ?_⟩
    have hjb : j < bits.length := by omega
    have htake : (bits.take (j + 1)).reverse = bits[j] :: (bits.take j).reverse := by
      rw [List.take_succ_eq_append_getElem hjb, List.reverse_append, List.reverse_singleton, List.singleton_append]
    have hlen : (bits.take j).reverse.length = j := by
      rw [List.length_reverse, List.length_take]; omega
    have hget : bits.getD j false = bits[j] := by
      rw [List.getD_eq_getElem?_getD, List.getElem?_eq_getElem hjb]; rfl
    rw [a3, htake, indexOf, hlen, hget]
    have hcast : ((j + 1 : Nat) : Int) * C = j * C + C := by push_cast; ring
    cases hβ : bits[j]
    · refine ⟨e0 + e, by rw [hcast]; exact s0.add a2, ?_⟩
      simp only [Bool.false_eq_true, if_false]
      rw [p0, show 2 * i * 2 ^ j + indexOf (bits.take j).reverse =
        i * 2 ^ (j + 1) + (0 + indexOf (bits.take j).reverse) by ring]
      ring
    · refine ⟨e1 + e, by rw [hcast]; exact s1.add a2, ?_⟩
      simp only [if_true]
      rw [p1, show (2 * i + 1) * 2 ^ j + indexOf (bits.take j).reverse =
        i * 2 ^ (j + 1) + (2 ^ j + indexOf (bits.take j).reverse) by ring]
      ring

/-- The loop of the blind rotation is that of the CPU. -/
theorem rotate_eq {G : Type} (cm : Nat → List (BitVec w) → List (BitVec w) → List (BitVec w))
    (ep : G → List (BitVec w) → List (BitVec w) → List (BitVec w)) (N k : Nat) (hN : 0 < N) (gs : List G)
    (hcm : ∀ i g, gs[i]? = some g → ∀ c0 c1, CtFits N k c0 → CtFits N k c1 →
      cm i c0 c1 = (Pbs.cmux (ep g) c0 c1).1 ∧ CtFits N k (cm i c0 c1)) :
    ∀ m d c, m ≤ gs.length → d + m < 64 → CtFits N k c →
      ((List.range m).reverse.foldl (fun (s : List (BitVec w) × Nat) i =>
        (cm i s.1 (listMonomialDiv N s.1 (2 ^ s.2)), s.2 + 1)) (c, d)).1 =
      rotateLoop (fun g c0 c1 => (Pbs.cmux (ep g) c0 c1).1) N (gs.take m).reverse (2 ^ d) c := by
  intro m
  induction m with
  | zero => intro d c _ _ _; rfl
  | succ m ih =>
    intro d c hm hd hc
    have hmg : m < gs.length := by omega
    rw [List.range_succ, List.reverse_append, List.reverse_singleton, List.singleton_append, List.foldl_cons,
      List.take_succ_eq_append_getElem hmg, List.reverse_append, List.reverse_singleton, List.singleton_append, rotateLoop]
    obtain ⟨_, m1, _⟩ := phase_mono N k hN c c hc (2 ^ d)
    obtain ⟨a1, a2⟩ := hcm m gs[m] (List.getElem?_eq_getElem hmg) c _ hc m1
    rw [ih (d + 1) _ (by omega) (by omega) a2, a1, ← pow_succ, Nat.mod_eq_of_lt]
    exact Nat.pow_lt_pow_right (by norm_num) (by omega)

end Verif.Cuda.Vp
