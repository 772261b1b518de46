import Verif.Cuda.NsmLemmas
import Mathlib.Algebra.BigOperators.Intervals
import Mathlib.Tactic.LinearCombination
/-
Lemmas on the Fourier transform of the GPU: its exact version evaluates a polynomial.
-/
namespace Verif.Cuda.Nsm
open Finset

variable {V : Type}

theorem level_low {t : Nat} (f : Nat → Nat → V → V → V × V) (A : Nat → V) (q r : Nat) (hr : r < t) :
    level t f A (2 * t * q + r) = (f (q * t + r) q (A (2 * t * q + r)) (A (2 * t * q + r + t))).1 := by
  have h2 : 0 < 2 * t := by omega
  simp only [level, Nat.mul_add_div h2, Nat.mul_add_mod, Nat.div_eq_of_lt (show r < 2 * t by omega),
    Nat.mod_eq_of_lt (show r < 2 * t by omega), if_pos hr, Nat.add_zero]

theorem level_high {t : Nat} (f : Nat → Nat → V → V → V × V) (A : Nat → V) (q r : Nat) (hr : r < t) :
    level t f A (2 * t * q + r + t) = (f (q * t + r) q (A (2 * t * q + r)) (A (2 * t * q + r + t))).2 := by
  have h2 : 0 < 2 * t := by omega
  simp only [level, Nat.add_assoc _ r t, Nat.mul_add_div h2, Nat.mul_add_mod, Nat.div_eq_of_lt (show r + t < 2 * t by omega),
    Nat.mod_eq_of_lt (show r + t < 2 * t by omega), if_neg (show ¬ r + t < t by omega), Nat.add_zero]
  rw [show r + t - t = r by omega, show 2 * t * q + (r + t) - t = 2 * t * q + r by omega]

variable {R : Type} [CommRing R]

theorem pts_even (I : R) (W : Nat → R) {h : Nat} (h0 : 0 < h) : pts I W (2 * h) = W h := by
  rw [pts, if_neg (by omega), if_pos (by omega), show 2 * h / 2 = h by omega]

theorem pts_odd (I : R) (W : Nat → R) {h : Nat} (h0 : 0 < h) : pts I W (2 * h + 1) = -W h := by
  rw [pts, if_neg (by omega), if_neg (by omega), show (2 * h + 1) / 2 = h by omega]

/-- After the levels down to groups of `t` elements, of which there are `m`. -/
def AtStage (I : R) (W : Nat → R) (a : Nat → R) (t m : Nat) (A : Nat → R) : Prop :=
  ∀ j < m, ∀ r < t, A (t * j + r) = ∑ q ∈ range m, a (r + t * q) * pts I W (m + j) ^ q

theorem sum_even_odd (f : Nat → R) (m : Nat) :
    ∑ q ∈ range (2 * m), f q = ∑ q ∈ range m, f (2 * q) + ∑ q ∈ range m, f (2 * q + 1) := by
  induction m with
  | zero => simp
  | succ m ih => rw [Nat.mul_add, sum_range_succ, sum_range_succ, ih, sum_range_succ, sum_range_succ]; ring

/-- A level of the direct transform. -/
theorem AtStage.step {I : R} {W : Nat → R} {a A : Nat → R} {t m : Nat} (hm : 0 < m) (h : AtStage I W a (2 * t) m A)
    (hW : ∀ j < m, W (m + j) ^ 2 = pts I W (m + j)) (f : Nat → Nat → R → R → R × R)
    (hf : ∀ tid, ∀ q < m, ∀ x y, f tid q x y = (x + W (m + q) * y, x - W (m + q) * y)) :
    AtStage I W a t (2 * m) (level t f A) := by
  intro j hj r hr
  obtain ⟨q, hq | hq⟩ : ∃ q, j = 2 * q ∨ j = 2 * q + 1 := ⟨j / 2, by omega⟩
  all_goals
    have hqm : q < m := by omega
    have h1 := h q hqm r (by omega)
    have h2 := h q hqm (r + t) (by omega)
    rw [← Nat.add_assoc] at h2
    rw [← hW q hqm] at h1 h2
  · rw [show t * j + r = 2 * t * q + r by rw [hq]; ring, level_low _ _ _ _ hr, hf _ q hqm, h1, h2, hq,
      show 2 * m + 2 * q = 2 * (m + q) by ring, pts_even _ _ (by omega), sum_even_odd]
    simp only
    congr 1
    · refine sum_congr rfl fun i _ => ?_
      rw [← pow_mul]; congr 2; ring
    · rw [mul_sum]
      refine sum_congr rfl fun i _ => ?_
      rw [← pow_mul, pow_succ, show r + t + 2 * t * i = r + t * (2 * i + 1) by ring]; ring
  · rw [show t * j + r = 2 * t * q + r + t by rw [hq]; ring, level_high _ _ _ _ hr, hf _ q hqm, h1, h2, hq,
      show 2 * m + (2 * q + 1) = 2 * (m + q) + 1 by ring, pts_odd _ _ (by omega), sum_even_odd]
    simp only
    rw [sub_eq_add_neg]
    congr 1
    · refine sum_congr rfl fun i _ => ?_
      rw [pow_mul _ 2 i, neg_sq]; congr 2; ring
    · rw [mul_sum, ← sum_neg_distrib]
      refine sum_congr rfl fun i _ => ?_
      rw [pow_succ _ (2 * i), pow_mul _ 2 i, neg_sq, show r + t + 2 * t * i = r + t * (2 * i + 1) by ring]; ring

/-- The groups of the inverse transform. -/
def Gathered (conj : R →+* R) (I : R) (W : Nat → R) (n : Nat) (z : Nat → R) (t m : Nat) (A : Nat → R) : Prop :=
  ∀ j < m, ∀ r < t, A (t * j + r) = ∑ p ∈ range t, z (t * j + p) * conj (pts I W (n + (t * j + p))) ^ r

/-- The points of a group are roots of that of the group. -/
theorem pts_pow {I : R} {W : Nat → R} {K : Nat} (hW : ∀ h, 0 < h → h < 2 ^ K → W h ^ 2 = pts I W h) :
    ∀ k ≤ K, ∀ j < 2 ^ (K - k), ∀ p < 2 ^ k, pts I W (2 ^ K + (2 ^ k * j + p)) ^ (2 ^ k) = pts I W (2 ^ (K - k) + j) := by
  intro k
  induction k with
  | zero =>
    intro _ j _ p hp
    have : p = 0 := by simpa using hp
    simp [this]
  | succ k ih =>
    intro hk j hj p hp
    have e1 : 2 ^ (K - k) = 2 * 2 ^ (K - (k + 1)) := by rw [← Nat.pow_succ']; congr 1; omega
    have e2 : 2 ^ K = 2 ^ k * (2 * 2 ^ (K - (k + 1))) := by rw [← e1, ← Nat.pow_add]; congr 1; omega
    have hlt : 2 ^ (K - (k + 1)) + j < 2 ^ K := by
      have : 2 * 2 ^ (K - (k + 1)) ≤ 2 ^ K := by rw [e2]; exact Nat.le_mul_of_pos_left _ (Nat.two_pow_pos k)
      omega
    have hpos : 0 < 2 ^ (K - (k + 1)) + j := by have := Nat.two_pow_pos (K - (k + 1)); omega
    have hw := hW _ hpos hlt
    rw [pow_succ, pow_mul]
    by_cases h : p < 2 ^ k
    · have := ih (by omega) (2 * j) (by omega) p h
      rw [show 2 ^ k * 2 * j + p = 2 ^ k * (2 * j) + p by ring, this, e1, ← Nat.mul_add, pts_even _ _ hpos, hw]
    · have := ih (by omega) (2 * j + 1) (by omega) (p - 2 ^ k) (by rw [Nat.pow_succ] at hp; omega)
      rw [show 2 ^ k * 2 * j + p = 2 ^ k * (2 * j + 1) + (p - 2 ^ k) by rw [Nat.mul_add, Nat.mul_one, Nat.mul_assoc]; omega, this, e1,
        show 2 * 2 ^ (K - (k + 1)) + (2 * j + 1) = 2 * (2 ^ (K - (k + 1)) + j) + 1 by ring, pts_odd _ _ hpos, neg_sq, hw]

/-- A level of the inverse transform. -/
theorem Gathered.step {conj : R →+* R} {I : R} {W : Nat → R} {K k : Nat} {z A : Nat → R} (hk : k < K)
    (hW : ∀ h, 0 < h → h < 2 ^ K → W h ^ 2 = pts I W h)
    (h : Gathered conj I W (2 ^ K) z (2 ^ k) (2 ^ (K - k)) A) (f : Nat → Nat → R → R → R × R)
    (hf : ∀ tid, ∀ q < 2 ^ (K - (k + 1)), ∀ x y, f tid q x y = (x + y, (x - y) * conj (W (2 ^ (K - (k + 1)) + q)))) :
    Gathered conj I W (2 ^ K) z (2 ^ (k + 1)) (2 ^ (K - (k + 1))) (level (2 ^ k) f A) := by
  intro j hj r hr
  have e1 : 2 ^ (K - k) = 2 * 2 ^ (K - (k + 1)) := by rw [← Nat.pow_succ']; congr 1; omega
  have hpos : 0 < 2 ^ (K - (k + 1)) + j := by have := Nat.two_pow_pos (K - (k + 1)); omega
  have hpw := pts_pow hW
  have ev : ∀ p < 2 ^ k, pts I W (2 ^ K + (2 ^ k * (2 * j) + p)) ^ 2 ^ k = W (2 ^ (K - (k + 1)) + j) := by
    intro p hp
    rw [hpw k (by omega) (2 * j) (by omega) p hp, e1, ← Nat.mul_add, pts_even _ _ hpos]
  have od : ∀ p < 2 ^ k, pts I W (2 ^ K + (2 ^ k * (2 * j + 1) + p)) ^ 2 ^ k = -W (2 ^ (K - (k + 1)) + j) := by
    intro p hp
    rw [hpw k (by omega) (2 * j + 1) (by omega) p hp, e1,
      show 2 * 2 ^ (K - (k + 1)) + (2 * j + 1) = 2 * (2 ^ (K - (k + 1)) + j) + 1 by ring, pts_odd _ _ hpos]
  have split : ∀ g : Nat → R, ∑ p ∈ range (2 ^ (k + 1)), g (2 ^ (k + 1) * j + p) =
      ∑ p ∈ range (2 ^ k), g (2 ^ k * (2 * j) + p) + ∑ p ∈ range (2 ^ k), g (2 ^ k * (2 * j + 1) + p) := by
    intro g
    rw [pow_succ, Nat.mul_two, sum_range_add]
    congr 1
    · exact sum_congr rfl fun p _ => by rw [show (2 ^ k + 2 ^ k) * j + p = 2 ^ k * (2 * j) + p by ring]
    · exact sum_congr rfl fun p _ => by rw [show (2 ^ k + 2 ^ k) * j + (2 ^ k + p) = 2 ^ k * (2 * j + 1) + p by ring]
  have key : ∀ s < 2 ^ k, A (2 * 2 ^ k * j + s) = ∑ p ∈ range (2 ^ k), z (2 ^ k * (2 * j) + p) *
        conj (pts I W (2 ^ K + (2 ^ k * (2 * j) + p))) ^ s ∧
      A (2 * 2 ^ k * j + s + 2 ^ k) = ∑ p ∈ range (2 ^ k), z (2 ^ k * (2 * j + 1) + p) *
        conj (pts I W (2 ^ K + (2 ^ k * (2 * j + 1) + p))) ^ s := by
    intro s hs
    refine ⟨?_, ?_⟩
    · rw [← h (2 * j) (by omega) s hs]; congr 1; ring
    · rw [← h (2 * j + 1) (by omega) s hs]; congr 1; ring
  rw [split fun i => z i * conj (pts I W (2 ^ K + i)) ^ r]
  by_cases hlt : r < 2 ^ k
  · rw [show 2 ^ (k + 1) * j + r = 2 * 2 ^ k * j + r by rw [Nat.pow_succ']; , level_low _ _ _ _ hlt, hf _ j hj,
      (key r hlt).1, (key r hlt).2]
  · obtain ⟨s, rfl⟩ : ∃ s, r = s + 2 ^ k := ⟨r - 2 ^ k, by omega⟩
    have hs : s < 2 ^ k := by rw [Nat.pow_succ] at hr; omega
    rw [show 2 ^ (k + 1) * j + (s + 2 ^ k) = 2 * 2 ^ k * j + s + 2 ^ k by rw [Nat.pow_succ', Nat.add_assoc],
      level_high _ _ _ _ hs, hf _ j hj, (key s hs).1, (key s hs).2]
    simp only
    rw [sub_mul, sub_eq_add_neg, sum_mul, sum_mul, ← sum_neg_distrib]
    congr 1
    · refine sum_congr rfl fun p hp => ?_
      rw [pow_add, ← map_pow conj _ (2 ^ k), ev p (mem_range.1 hp)]; ring
    · refine sum_congr rfl fun p hp => ?_
      rw [pow_add, ← map_pow conj _ (2 ^ k), od p (mem_range.1 hp), map_neg]; ring

theorem foldl_range_succ {α : Type} (f : α → Nat → α) (a : α) (n : Nat) :
    (List.range (n + 1)).foldl f a = f ((List.range n).foldl f a) n := by
  rw [List.range_succ, List.foldl_append]; rfl

/-- The direct transform evaluates the polynomial `Σ a_q X^q` at the points. -/
theorem direct_exact (I : R) (W : Nat → R) (conj : R → R) (invn : R) (K : Nat)
    (hW : ∀ h, 0 < h → h < 2 ^ (K + 1) → W h ^ 2 = pts I W h) (a : Nat → R) (p : Nat) (hp : p < 2 ^ (K + 1)) :
    direct (exactOps (W 1) conj invn) W (2 ^ (K + 1)) a p =
      ∑ q ∈ range (2 ^ (K + 1)), a q * pts I W (2 ^ (K + 1) + p) ^ q := by
  have hh : 2 ^ (K + 1) / 2 = 2 ^ K := by rw [Nat.pow_succ]; omega
  rw [direct, hh, fwdLevels_pow, List.foldl_map]
  have start : AtStage I W a (2 * 2 ^ K) 1 a := by
    intro j hj r _
    have : j = 0 := by omega
    simp [this]
  have first : AtStage I W a (2 ^ K) (2 ^ 1) (level (2 ^ K) (fun tid _ => (exactOps (W 1) conj invn).first tid) a) := by
    refine start.step (by omega) ?_ _ ?_
    · intro j hj
      have : j = 0 := by omega
      subst this
      exact hW 1 (by omega) (Nat.one_lt_two_pow (by omega))
    · intro tid q hq x y
      have : q = 0 := by omega
      subst this; rfl
  have all : ∀ s ≤ K, AtStage I W a (2 ^ (K - s)) (2 ^ (s + 1)) ((List.range s).foldl (fun A s =>
      level (2 ^ (K - 1 - s)) (fun tid q => (exactOps (W 1) conj invn).fwd (2 ^ (s + 1) * 1) tid
        (W (q + 2 ^ (s + 1) * 1))) A)
      (level (2 ^ K) (fun tid _ => (exactOps (W 1) conj invn).first tid) a)) := by
    intro s
    induction s with
    | zero => intro _; exact first
    | succ s ih =>
      intro hs
      rw [foldl_range_succ]
      have e : 2 ^ (K - s) = 2 * 2 ^ (K - (s + 1)) := by rw [← Nat.pow_succ']; congr 1; omega
      have h1 := ih (by omega)
      rw [e] at h1
      have h2 := h1.step (Nat.two_pow_pos _) (fun j hj => hW _ (by have := Nat.two_pow_pos (s + 1); omega) (by
        have : 2 ^ (s + 1) * 2 ≤ 2 ^ (K + 1) := by rw [← Nat.pow_succ]; exact Nat.pow_le_pow_right (by omega) (by omega)
        omega)) (fun tid q => (exactOps (W 1) conj invn).fwd (2 ^ (s + 1) * 1) tid (W (q + 2 ^ (s + 1) * 1)))
        (fun tid q _ x y => by rw [Nat.mul_one, Nat.add_comm q]; rfl)
      rw [← Nat.pow_succ'] at h2
      rw [show K - 1 - s = K - (s + 1) by omega]
      exact h2
  have h := all K le_rfl p hp 0 (by simp)
  rw [Nat.sub_self] at h
  simpa using h

/-- The inverse transform. -/
theorem inverse_exact (I : R) (W : Nat → R) (conj : R →+* R) (w1 invn : R) (K : Nat)
    (hW : ∀ h, 0 < h → h < 2 ^ K → W h ^ 2 = pts I W h) (z : Nat → R) (j : Nat) (hj : j < 2 ^ K) :
    inverse (exactOps w1 conj invn) W (2 ^ K) z j =
      ∑ p ∈ range (2 ^ K), z p * invn * conj (pts I W (2 ^ K + p)) ^ j := by
  rw [inverse, invLevels_pow, List.foldl_map]
  have all : ∀ s ≤ K, Gathered conj I W (2 ^ K) (fun p => z p * invn) (2 ^ s) (2 ^ (K - s))
      ((List.range s).foldl (fun A s => level (2 ^ s * 1) (fun tid q => (exactOps w1 conj invn).inv (2 ^ (K - 1 - s)) tid
        (W (q + 2 ^ (K - 1 - s)))) A) (fun p => (exactOps w1 conj invn).scale (2 ^ K) p (z p))) := by
    intro s
    induction s with
    | zero =>
      intro _ j _ r hr
      have : r = 0 := by simpa using hr
      simp [this, exactOps]
    | succ s ih =>
      intro hs
      rw [foldl_range_succ]
      have h1 := (ih (by omega)).step (by omega) hW (fun tid q => (exactOps w1 conj invn).inv (2 ^ (K - 1 - s)) tid
        (W (q + 2 ^ (K - 1 - s)))) (fun tid q _ x y => by
          rw [show K - 1 - s = K - (s + 1) by omega, Nat.add_comm q]; rfl)
      rw [Nat.mul_one]
      exact h1
  have h := all K le_rfl 0 (by simp) j hj
  simpa using h

end Verif.Cuda.Nsm
