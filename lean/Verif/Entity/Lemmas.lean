import Verif.Entity.Spec
import Verif.Util.ParChunks
import Mathlib.Algebra.BigOperators.Group.List.Basic
import Mathlib.Tactic.Ring
/-
Helper lemmas for the layout of the entities.
-/
namespace Verif.Entity

variable {α : Type}

theorem mulU_ok (m : Build) {a b : Nat} (h : a * b < 2 ^ 64) : mulU m a b = some (a * b) := by
  cases m
  · simp only [mulU, if_pos h]
  · simp only [mulU, Nat.mod_eq_of_lt h]

theorem subU_ok (m : Build) {a b : Nat} (h : b ≤ a) (ha : a < 2 ^ 64) : subU m a b = some (a - b) := by
  cases m
  · simp only [subU, if_pos h]
  · simp only [subU, Option.some.injEq]
    rw [Nat.mod_eq_of_lt (by omega : b < 2 ^ 64)]
    omega

theorem divU_ok {a b n : Nat} (hb : 0 < b) (h : a = n * b) : divU a b = some n := by
  simp only [divU, if_neg (Nat.ne_of_gt hb), h, Nat.mul_div_cancel n hb]

theorem foldlM_mulU (m : Build) : ∀ (ds : List Nat) (acc : Nat), (∀ d ∈ ds, 0 < d) →
    acc * ds.prod < 2 ^ 64 → ds.foldlM (mulU m) acc = some (acc * ds.prod)
  | [], acc, _, _ => by simp
  | d :: ds, acc, hpos, h => by
    rw [List.prod_cons, ← Nat.mul_assoc] at h ⊢
    have hp : 0 < ds.prod := by
      clear h
      induction ds with
      | nil => simp
      | cons x xs ih =>
        rw [List.prod_cons]
        exact Nat.mul_pos (hpos x (by simp)) (ih fun y hy => hpos y (by
          rcases List.mem_cons.1 hy with h | h <;> simp [h]))
    have h1 : acc * d < 2 ^ 64 := lt_of_le_of_lt (Nat.le_mul_of_pos_right _ hp) h
    rw [List.foldlM_cons, mulU_ok m h1]
    exact foldlM_mulU m ds (acc * d) (fun y hy => hpos y (List.mem_cons_of_mem _ hy)) h

theorem prodU_ok (m : Build) (ds : List Nat) (hpos : ∀ d ∈ ds, 0 < d) (h : ds.prod < 2 ^ 64) :
    prodU m ds = some ds.prod := by
  rw [prodU, foldlM_mulU m ds 1 hpos (by simpa using h), Nat.one_mul]

theorem prodU_eq (m : Build) (ds : List Nat) {v : Nat} (hpos : ∀ d ∈ ds, 0 < d) (hv : ds.prod = v)
    (h : v < 2 ^ 64) : prodU m ds = some v := by
  rw [← hv]; exact prodU_ok m ds hpos (hv ▸ h)

theorem ckDimDiv_nil (m : Build) (len : Nat) : ckDimDiv m len [] = some () := by
  cases m <;> rfl

theorem ckDimDiv_cons (m : Build) (len : Nat) (d : List Nat) (ds : List (List Nat)) {v : Nat}
    (hp : prodU .debug d = some v) (hv : 0 < v) (hd : v ∣ len) :
    ckDimDiv m len (d :: ds) = ckDimDiv m len ds := by
  cases m
  · simp only [ckDimDiv, List.forM_eq_forM, List.forM_cons, hp]
    rw [show (do let d ← (some v : Option Nat); if d ≠ 0 ∧ len % d = 0 then some () else none : Option Unit)
        = some () by
      simp only [Option.bind_eq_bind, Option.bind_some]
      rw [if_pos ⟨Nat.ne_of_gt hv, Nat.mod_eq_zero_of_dvd hd⟩]]
    rfl
  · rfl

theorem subtensors_ok (m : Build) {size n : Nat} (hs : 0 < size) (l : List α) (hl : l.length = n * size) :
    subtensors m size l = some ((List.range n).map (block size l)) := by
  rw [← chunks_eq size hs n l hl]
  cases m
  · simp only [subtensors, if_neg (Nat.ne_of_gt hs)]
    rw [if_pos (by rw [hl]; exact Nat.mul_mod_left n size)]
  · simp only [subtensors, if_neg (Nat.ne_of_gt hs)]

theorem updateSubtensors_ok (m : Build) {size n : Nat} (hs : 0 < size) (l : List α)
    (hl : l.length = n * size) (f : Nat → List α → List α) (hf : InPlace size f) :
    ∃ t, updateSubtensors m size f l = some t ∧ Rewritten n size f l t := by
  have h := mapIdx_chunks_block f n size hs l hl fun i c _ hc => hf i c hc
  refine ⟨((chunks size l).mapIdx f).flatten, ?_, ?_, ?_⟩
  · simp only [updateSubtensors, subtensors_ok m hs l hl, Option.bind_eq_bind, Option.bind_some,
      chunks_eq size hs n l hl]
  · rw [h.1, hl]
  · intro i hi
    exact h.2 i hi

theorem block_len' {n k i : Nat} (cont : List α) (h : cont.length = n * k) (hi : i < n) :
    (block k cont i).length = k :=
  block_length k cont i (by rw [h]; exact Nat.mul_le_mul_right k hi)

theorem splits_blocks {n k : Nat} (cont : List α) (h : cont.length = n * k) :
    Splits cont n k ((List.range n).map (block k cont)) where
  whole := h
  count := by simp
  part := fun i hi => ⟨block k cont i, by simp [hi], block_len' cont h hi,
    fun j hj => block_getElem? k cont i j hj⟩

theorem mapM_some {β γ : Type} (f : β → Option γ) (g : β → γ) : ∀ (l : List β),
    (∀ x ∈ l, f x = some (g x)) → l.mapM f = some (l.map g)
  | [], _ => rfl
  | x :: l, h => by
    rw [List.mapM_cons, h x (by simp), mapM_some f g l fun y hy => h y (List.mem_cons_of_mem _ hy)]
    rfl

theorem idx_lt {a b n k : Nat} (ha : a < n) (hb : b < k) : a * k + b < n * k := by
  calc a * k + b < a * k + k := by omega
    _ = (a + 1) * k := by ring
    _ ≤ n * k := Nat.mul_le_mul_right k ha

theorem range_map_get {β : Type} (g : Nat → β) {n i : Nat} (hi : i < n) :
    ((List.range n).map g)[i]? = some (g i) := by
  simp [hi]

theorem zipIdx_map_get {β γ : Type} (l : List β) (g : β × Nat → γ) {i : Nat} {x : β}
    (hx : l[i]? = some x) : (l.zipIdx.map g)[i]? = some (g (x, i)) := by
  simp [hx]

end Verif.Entity

namespace Verif.Entity

variable {α : Type}

/-- A divisor (a product of dimensions) that passes the check. -/
def Fits (len : Nat) (d : List Nat) : Prop := (∀ x ∈ d, 0 < x) ∧ d.prod < 2 ^ 64 ∧ d.prod ∣ len

theorem prod_pos' : ∀ (ds : List Nat), (∀ d ∈ ds, 0 < d) → 0 < ds.prod
  | [], _ => by simp
  | d :: ds, h => by
    rw [List.prod_cons]
    exact Nat.mul_pos (h d (by simp)) (prod_pos' ds fun y hy => h y (List.mem_cons_of_mem _ hy))

theorem ckDimDiv_ok (m : Build) (len : Nat) : ∀ (ds : List (List Nat)), (∀ d ∈ ds, Fits len d) →
    ckDimDiv m len ds = some ()
  | [], _ => ckDimDiv_nil m len
  | d :: ds, h => by
    obtain ⟨h1, h2, h3⟩ := h d (by simp)
    rw [ckDimDiv_cons m len d ds (prodU_ok .debug d h1 h2) (prod_pos' d h1) h3]
    exact ckDimDiv_ok m len ds fun y hy => h y (List.mem_cons_of_mem _ hy)

theorem fits1 {len a : Nat} (n : Nat) (ha : 0 < a) (h : a < 2 ^ 64) (hl : len = n * a) : Fits len [a] := by
  refine ⟨by simpa using ha, by simpa using h, ?_⟩
  simp only [List.prod_cons, List.prod_nil, Nat.mul_one]
  exact ⟨n, by rw [hl, Nat.mul_comm]⟩

theorem fits2 {len a b : Nat} (n : Nat) (ha : 0 < a) (hb : 0 < b) (h : a * b < 2 ^ 64)
    (hl : len = n * (a * b)) : Fits len [a, b] := by
  refine ⟨by simp [ha, hb], by simpa using h, ?_⟩
  simp only [List.prod_cons, List.prod_nil, Nat.mul_one]
  exact ⟨n, by rw [hl, Nat.mul_comm]⟩

theorem lt_of_mul_lt_l {a b c : Nat} (hb : 0 < b) (h : a * b < c) : a < c :=
  lt_of_le_of_lt (Nat.le_mul_of_pos_right a hb) h

theorem lt_of_mul_lt_r {a b c : Nat} (ha : 0 < a) (h : a * b < c) : b < c :=
  lt_of_le_of_lt (Nat.le_mul_of_pos_left b ha) h

theorem ck1 (m : Build) {len : Nat} {a : List Nat} (ha : Fits len a) : ckDimDiv m len [a] = some () :=
  ckDimDiv_ok m len _ (by simpa using ha)

theorem ck2 (m : Build) {len : Nat} {a b : List Nat} (ha : Fits len a) (hb : Fits len b) :
    ckDimDiv m len [a, b] = some () :=
  ckDimDiv_ok m len _ (by simpa using ⟨ha, hb⟩)

theorem ck3 (m : Build) {len : Nat} {a b c : List Nat} (ha : Fits len a) (hb : Fits len b)
    (hc : Fits len c) : ckDimDiv m len [a, b, c] = some () :=
  ckDimDiv_ok m len _ (by simpa using ⟨ha, hb, hc⟩)

theorem prod1 (m : Build) {a : Nat} (ha : 0 < a) (h : a < 2 ^ 64) : prodU m [a] = some a :=
  prodU_eq m _ (by simpa using ha) (by simp) h

theorem prod2 (m : Build) {a b : Nat} (ha : 0 < a) (hb : 0 < b) (h : a * b < 2 ^ 64) :
    prodU m [a, b] = some (a * b) :=
  prodU_eq m _ (by simp [ha, hb]) (by simp) h

theorem prod3 (m : Build) {a b c : Nat} (ha : 0 < a) (hb : 0 < b) (hc : 0 < c) (h : a * b * c < 2 ^ 64) :
    prodU m [a, b, c] = some (a * b * c) :=
  prodU_eq m _ (by simp [ha, hb, hc]) (by simp; ring) h

theorem prod4 (m : Build) {a b c d : Nat} (ha : 0 < a) (hb : 0 < b) (hc : 0 < c) (hd : 0 < d)
    (h : a * b * c * d < 2 ^ 64) : prodU m [a, b, c, d] = some (a * b * c * d) :=
  prodU_eq m _ (by simp [ha, hb, hc, hd]) (by simp; ring) h

/-- A product whose last factor may be null. -/
theorem foldlM_append_last (m : Build) (ds : List Nat) (z : Nat) (hpos : ∀ d ∈ ds, 0 < d)
    (h : ds.prod < 2 ^ 64) (h' : ds.prod * z < 2 ^ 64) :
    prodU m (ds ++ [z]) = some (ds.prod * z) := by
  have := prodU_ok m ds hpos h
  rw [prodU] at this
  rw [prodU, List.foldlM_append, this]
  simp [mulU_ok m h']

end Verif.Entity
