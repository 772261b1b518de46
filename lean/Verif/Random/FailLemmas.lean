import Verif.Random.FailAccept
import Verif.Random.CountGauss
/-
The number of strings of bytes that are not enough for a draw of the gaussian sampler, and for one of several generators
forked from the same bytes.
-/
namespace Verif.Random
open Finset

/-! ### The numbers of failures as solutions of a recurrence -/

structure Rec (A R : ℕ) (F : ℕ → ℕ → ℕ) : Prop where
  zero : ∀ L, F 0 L = 0
  short : ∀ m L, L < 16 → F (m + 1) L = 256 ^ L
  step : ∀ m L, F (m + 1) (8 + (8 + L)) = A * F m L + R * F (m + 1) L

theorem Rec.one {A R : ℕ} {F : ℕ → ℕ → ℕ} (h : Rec A R F) (r : ℕ) (hr : r < 16) : ∀ K, F 1 (16 * K + r) = R ^ K * 256 ^ r
  | 0 => by rw [Nat.mul_zero, Nat.zero_add, h.short 0 r hr, pow_zero, Nat.one_mul]
  | K + 1 => by
    rw [show 16 * (K + 1) + r = 8 + (8 + (16 * K + r)) by ring, h.step, h.zero, Rec.one h r hr K, pow_succ]
    ring

theorem Rec.many {A R : ℕ} {F : ℕ → ℕ → ℕ} (h : Rec A R F) (hA : A + R = 2 ^ 128) (hR : R ≤ 2 ^ 126) (r : ℕ) (hr : r < 16) :
    ∀ K m, F (m + 1) (16 * K + r) * 64 ^ K ≤ 16 ^ m * 19 ^ K * (2 ^ 128) ^ K * 256 ^ r
  | 0, m => by
    rw [Nat.mul_zero, Nat.zero_add, h.short m r hr]
    simp only [pow_zero, Nat.mul_one]
    exact Nat.le_mul_of_pos_left _ (Nat.pow_pos (by norm_num))
  | K + 1, m => by
    obtain ⟨Q, hQ⟩ : ∃ Q, Q = 2 ^ 126 := ⟨_, rfl⟩
    have hA' : A + R = 4 * Q := by rw [hA, hQ]; norm_num
    have hR' : R ≤ Q := by rw [hQ]; exact hR
    have e4 : (2 : ℕ) ^ 128 = 4 * Q := by rw [hQ]; norm_num
    rw [e4]
    have ih : ∀ m, F (m + 1) (16 * K + r) * 64 ^ K ≤ 16 ^ m * 19 ^ K * (4 * Q) ^ K * 256 ^ r := by
      intro m
      rw [← e4]
      exact Rec.many h hA hR r hr K m
    clear hA hR e4
    rw [show 16 * (K + 1) + r = 8 + (8 + (16 * K + r)) by ring, h.step]
    generalize 16 * K + r = L at *
    obtain ⟨E, hE⟩ : ∃ E, E = 19 ^ K * (4 * Q) ^ K * 256 ^ r := ⟨_, rfl⟩
    have ih' : ∀ m, F (m + 1) L * 64 ^ K ≤ 16 ^ m * E := by
      intro m
      refine (ih m).trans (le_of_eq ?_)
      rw [hE]; ring
    have goal : 16 ^ m * 19 ^ (K + 1) * (4 * Q) ^ (K + 1) * 256 ^ r = 76 * Q * (16 ^ m * E) := by rw [hE]; ring
    rw [goal]
    cases m with
    | zero =>
      rw [h.zero, Nat.mul_zero, Nat.zero_add, pow_zero, Nat.one_mul]
      have h0 := ih' 0
      rw [pow_zero, Nat.one_mul] at h0
      calc R * F (0 + 1) L * 64 ^ (K + 1) = 64 * R * (F (0 + 1) L * 64 ^ K) := by ring
        _ ≤ 64 * Q * E := Nat.mul_le_mul (Nat.mul_le_mul_left _ hR') h0
        _ ≤ 76 * Q * E := Nat.mul_le_mul_right _ (Nat.mul_le_mul_right _ (by norm_num))
    | succ m =>
      have h1 := ih' m
      have h2 := ih' (m + 1)
      calc (A * F (m + 1) L + R * F (m + 1 + 1) L) * 64 ^ (K + 1)
          = 64 * A * (F (m + 1) L * 64 ^ K) + 64 * R * (F (m + 1 + 1) L * 64 ^ K) := by ring
        _ ≤ 64 * A * (16 ^ m * E) + 64 * R * (16 ^ (m + 1) * E) :=
            Nat.add_le_add (Nat.mul_le_mul_left _ h1) (Nat.mul_le_mul_left _ h2)
        _ = 64 * (A + R + 15 * R) * (16 ^ m * E) := by ring
        _ ≤ 64 * (4 * Q + 15 * Q) * (16 ^ m * E) := by
            refine Nat.mul_le_mul_right _ (Nat.mul_le_mul_left _ ?_)
            omega
        _ = 76 * Q * (16 ^ (m + 1) * E) := by ring

/-! ### Failures of samplers -/

variable {w : ℕ}

def lfails {A : Type} (l : LSamp A) (L : ℕ) : ℕ := ∑ bs : Fin L → BitVec 8, if (l (List.ofFn bs)).isNone = true then 1 else 0

theorem Sim.isNone {A : Type} {s : Samp A} {l : LSamp A} (h : Sim s l) {g : Src} {bs : List (BitVec 8)} (hb : Has g bs) :
    (s g).isNone = (l bs).isNone := by
  rcases h _ _ hb with ⟨h1, h2⟩ | ⟨a, r, g', h1, h2, -⟩
  · rw [h1, h2]; rfl
  · rw [h1, h2]; rfl

theorem Sim.fails {A : Type} {s : Samp A} {l : LSamp A} (h : Sim s l) (L : ℕ) : fails s L = lfails l L := by
  rw [Random.fails, Finset.card_filter, lfails]
  refine Finset.sum_congr rfl fun bs _ => ?_
  rw [h.result, Option.isNone_map]

theorem card_bytes (L : ℕ) : ∑ _bs : Fin L → BitVec 8, 1 = 256 ^ L := by
  have : Fintype.card (BitVec 8) = 256 := by
    have := sum_bitVec 8 (fun _ => 1)
    simpa using this
  simp [this]

theorem sum_pairsWith {v : ℕ} (acc : BitVec v → BitVec v → Bool) (a r : ℕ) :
    (∑ x : BitVec v, ∑ y : BitVec v, if acc x y = true then a else r) = pairsWith acc true * a + pairsWith acc false * r := by
  rw [← Fintype.sum_prod_type' (fun x y => if acc x y = true then a else r), Finset.sum_ite, Finset.sum_const, Finset.sum_const,
    smul_eq_mul, smul_eq_mul, pairsWith, pairsWith]
  simp only [Bool.not_eq_true]

theorem rec_gauss (f : GaussianFn w) :
    Rec (pairsWith f.accept true) (pairsWith f.accept false) fun m L => lfails (lrep m (lgauss f)) L where
  zero L := by
    rw [lfails]
    refine Finset.sum_eq_zero fun bs _ => if_neg ?_
    simp [lrep]
  short m L hL := by
    rw [lfails, ← card_bytes]
    refine Finset.sum_congr rfl fun bs _ => if_pos ?_
    rw [lrep, lgauss_short f _ (by simpa using hL)]
    rfl
  step m L := by
    have hs : ∀ (x y : Fin 8 → BitVec 8), (∑ z : Fin L → BitVec 8,
        if (lrep (m + 1) (lgauss f) (List.ofFn x ++ (List.ofFn y ++ List.ofFn z))).isNone = true then 1 else 0) =
        if f.accept (word x) (word y) = true then lfails (lrep m (lgauss f)) L else lfails (lrep (m + 1) (lgauss f)) L := by
      intro x y
      by_cases ha : f.accept (word x) (word y) = true
      · simp only [lrep, lgauss_append, ha, if_true, lfails]
        refine Finset.sum_congr rfl fun z _ => ?_
        cases lrep m (lgauss f) (List.ofFn z) with
        | none => simp
        | some q => simp
      · simp only [lrep, lgauss_append, ha, lfails]
        rfl
    rw [← sum_pairsWith]
    rw [lfails, sum_append 8 (8 + L) fun bs => if (lrep (m + 1) (lgauss f) bs).isNone = true then 1 else 0]
    rw [← sum_word fun u => ∑ v : BitVec 64, _]
    refine Finset.sum_congr rfl fun x _ => ?_
    rw [sum_append 8 L fun bs => if (lrep (m + 1) (lgauss f) (List.ofFn x ++ bs)).isNone = true then 1 else 0,
      ← sum_word fun v => _]
    exact Finset.sum_congr rfl fun y _ => hs x y

theorem lfails_noise (f : GaussianFn w) (L : ℕ) : lfails (lnoise f) L = lfails (lrep 1 (lgauss f)) L := by
  refine Finset.sum_congr rfl fun bs _ => ?_
  rw [lnoise, lrep]
  cases lgauss f (List.ofFn bs) with
  | none => simp
  | some q => simp [lrep]

theorem lfails_tensor (f : GaussianFn w) (n L : ℕ) : lfails (ltensor f n) L = lfails (lrep ((n + 1) / 2) (lgauss f)) L := by
  refine Finset.sum_congr rfl fun bs _ => ?_
  rw [ltensor]
  cases lrep ((n + 1) / 2) (lgauss f) (List.ofFn bs) with
  | none => simp
  | some q => simp

/-! ### Generators forked from the same bytes -/

theorem has_slice (g : EncGen) (bs : List (BitVec 8)) (hg : g.noise = srcOf bs) (a b i : ℕ) (h : (i + 1) * b ≤ bs.length) :
    Has (g.slice a b i).noise ((bs.drop (i * b)).take b) := by
  have hb : i * b + b ≤ bs.length := by rw [← Nat.succ_mul]; exact h
  have hl : ((bs.drop (i * b)).take b).length = b := by rw [List.length_take, List.length_drop]; omega
  unfold EncGen.slice Has
  rw [hl, hg]
  refine ⟨?_, fun j hj => ?_⟩
  · simp only [srcOf]; ring
  · simp only [srcOf, Nat.zero_add]
    rw [List.getD_eq_getElem?_getD, List.getD_eq_getElem?_getD, List.getElem?_take_of_lt hj, List.getElem?_drop]

theorem sum_block (p b r : ℕ) (P : List (BitVec 8) → Bool) :
    (∑ bs : Fin (p + (b + r)) → BitVec 8, if P (((List.ofFn bs).drop p).take b) = true then 1 else 0) =
      256 ^ p * 256 ^ r * ∑ y : Fin b → BitVec 8, if P (List.ofFn y) = true then 1 else 0 := by
  have hin : ∀ (x : Fin p → BitVec 8) (y : Fin b → BitVec 8) (z : Fin r → BitVec 8),
      ((List.ofFn x ++ (List.ofFn y ++ List.ofFn z)).drop p).take b = List.ofFn y := by
    intro x y z
    rw [List.drop_left' (by simp), List.take_left' (by simp)]
  rw [sum_append p (b + r) fun bs => if P ((bs.drop p).take b) = true then 1 else 0]
  have h2 : ∀ x : Fin p → BitVec 8, (∑ y : Fin (b + r) → BitVec 8,
      if P (((List.ofFn x ++ List.ofFn y).drop p).take b) = true then 1 else 0) =
      256 ^ r * ∑ y : Fin b → BitVec 8, if P (List.ofFn y) = true then 1 else 0 := by
    intro x
    rw [sum_append b r fun bs => if P (((List.ofFn x ++ bs).drop p).take b) = true then 1 else 0, Finset.mul_sum]
    refine Finset.sum_congr rfl fun y _ => ?_
    simp only [hin]
    rw [← card_bytes, Finset.sum_mul]
    simp
  simp only [h2]
  rw [← card_bytes p, Finset.sum_mul, Finset.sum_mul]
  simp only [Nat.one_mul]

theorem union_bound {A : Type} (n b : ℕ) (l : LSamp A) (Q : List (BitVec 8) → Bool)
    (hQ : ∀ bs : List (BitVec 8), bs.length = n * b → Q bs = true → ∃ i < n, (l ((bs.drop (i * b)).take b)).isNone = true) :
    (Finset.univ.filter fun bs : Fin (n * b) → BitVec 8 => Q (List.ofFn bs) = true).card * 256 ^ b ≤
      n * lfails l b * 256 ^ (n * b) := by
  rw [Finset.card_filter]
  have h1 : (∑ bs : Fin (n * b) → BitVec 8, if Q (List.ofFn bs) = true then 1 else 0) ≤
      ∑ i ∈ Finset.range n, ∑ bs : Fin (n * b) → BitVec 8,
        if (l (((List.ofFn bs).drop (i * b)).take b)).isNone = true then 1 else 0 := by
    rw [Finset.sum_comm]
    refine Finset.sum_le_sum fun bs _ => ?_
    split
    · rename_i h
      obtain ⟨i, hi, hl⟩ := hQ (List.ofFn bs) (by simp) h
      refine le_trans (le_of_eq ?_) (Finset.single_le_sum (fun _ _ => Nat.zero_le _) (Finset.mem_range.2 hi))
      rw [if_pos hl]
    · exact Nat.zero_le _
  have h2 : ∀ i ∈ Finset.range n, (∑ bs : Fin (n * b) → BitVec 8,
        if (l (((List.ofFn bs).drop (i * b)).take b)).isNone = true then 1 else 0) * 256 ^ b = lfails l b * 256 ^ (n * b) := by
    intro i hi
    have hi := Finset.mem_range.1 hi
    obtain ⟨c, rfl⟩ : ∃ c, n = i + 1 + c := ⟨n - (i + 1), by omega⟩
    have e : (i + 1 + c) * b = i * b + (b + c * b) := by ring
    have := sum_block (i * b) b (c * b) fun y => (l y).isNone
    rw [← e] at this
    rw [this, lfails, e, pow_add, pow_add]
    ring
  calc _ ≤ (∑ i ∈ Finset.range n, ∑ bs : Fin (n * b) → BitVec 8,
        if (l (((List.ofFn bs).drop (i * b)).take b)).isNone = true then 1 else 0) * 256 ^ b := Nat.mul_le_mul_right _ h1
    _ = ∑ i ∈ Finset.range n, lfails l b * 256 ^ (n * b) := by rw [Finset.sum_mul]; exact Finset.sum_congr rfl h2
    _ = _ := by rw [Finset.sum_const, Finset.card_range, smul_eq_mul, Nat.mul_assoc]

/-- The bound for one generator gives the bound for all. -/
theorem union_bound' {A : Type} (n b e : ℕ) (l : LSamp A) (Q : List (BitVec 8) → Bool)
    (hQ : ∀ bs : List (BitVec 8), bs.length = n * b → Q bs = true → ∃ i < n, (l ((bs.drop (i * b)).take b)).isNone = true)
    (hl : lfails l b * 2 ^ e ≤ 256 ^ b) :
    (Finset.univ.filter fun bs : Fin (n * b) → BitVec 8 => Q (List.ofFn bs) = true).card * 2 ^ e ≤ n * 256 ^ (n * b) := by
  have h := union_bound n b l Q hQ
  generalize (Finset.univ.filter fun bs : Fin (n * b) → BitVec 8 => Q (List.ofFn bs) = true).card = c at *
  have hp : 0 < 256 ^ b := Nat.pow_pos (by norm_num)
  refine Nat.le_of_mul_le_mul_right (c := 256 ^ b) ?_ hp
  calc c * 2 ^ e * 256 ^ b = c * 256 ^ b * 2 ^ e := by ring
    _ ≤ n * lfails l b * 256 ^ (n * b) * 2 ^ e := Nat.mul_le_mul_right _ h
    _ = n * 256 ^ (n * b) * (lfails l b * 2 ^ e) := by ring
    _ ≤ n * 256 ^ (n * b) * 256 ^ b := Nat.mul_le_mul_left _ hl

end Verif.Random
