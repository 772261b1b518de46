import Verif.Csprng.Spec
import Verif.Util.Lists
/-
Helper lemmas on the generator model.
-/
namespace Verif.Csprng

namespace TableIndex

theorem WF.pos_lt {t : TableIndex} (h : t.WF) : t.pos < TABLE := by
  obtain ⟨h1, h2⟩ := h
  simp only [pos, TABLE]
  omega

theorem pos_inj {a b : TableIndex} (ha : a.WF) (hb : b.WF) (h : a.pos = b.pos) : a = b := by
  obtain ⟨h1, h2⟩ := ha
  obtain ⟨h3, h4⟩ := hb
  cases a; cases b
  simp only [pos] at *
  congr 1 <;> omega

theorem increase_pos (t : TableIndex) (s : Nat) :
    (t.increase s).pos = (t.pos + s) % TABLE := by
  simp only [pos, increase, TABLE, U128, BYTES_PER_AES_CALL]
  omega

theorem increase_WF (t : TableIndex) (s : Nat) : (t.increase s).WF := by
  simp only [increase, WF, U128, BYTES_PER_AES_CALL]
  omega

theorem decrease_pos {t : TableIndex} (h : t.WF) (s : Nat) (hs : s < 2 ^ 64) :
    (t.decrease s).pos = (t.pos + (TABLE - s)) % TABLE := by
  obtain ⟨h1, h2⟩ := h
  simp only [pos, decrease, TABLE, U128, BYTES_PER_AES_CALL, wrappingSubU128]
  by_cases hr : s % 16 ≤ t.byte
  · simp only [hr, if_true]; omega
  · simp only [hr, if_false]; omega

theorem decrease_WF {t : TableIndex} (h : t.WF) (s : Nat) : (t.decrease s).WF := by
  obtain ⟨h1, h2⟩ := h
  simp only [decrease, WF, U128, BYTES_PER_AES_CALL, wrappingSubU128]
  by_cases hr : s % 16 ≤ t.byte
  · simp only [hr, if_true]; omega
  · simp only [hr, if_false]; omega

theorem cmp_eq (a b : TableIndex) (ha : a.WF) (hb : b.WF) : cmp a b = compare a.pos b.pos := by
  obtain ⟨h1, h2⟩ := ha
  obtain ⟨h3, h4⟩ := hb
  simp only [cmp, pos]
  rcases Nat.lt_trichotomy a.aes b.aes with h | h | h
  · rw [Nat.compare_eq_lt.2 h]
    exact (Nat.compare_eq_lt.2 (by omega)).symm
  · rw [Nat.compare_eq_eq.2 h]
    rcases Nat.lt_trichotomy a.byte b.byte with g | g | g
    · rw [Nat.compare_eq_lt.2 g, Nat.compare_eq_lt.2 (by omega)]
    · rw [Nat.compare_eq_eq.2 g, Nat.compare_eq_eq.2 (by omega)]
    · rw [Nat.compare_eq_gt.2 g, Nat.compare_eq_gt.2 (by omega)]
  · rw [Nat.compare_eq_gt.2 h]
    exact (Nat.compare_eq_gt.2 (by omega)).symm

theorem lt_iff {a b : TableIndex} (ha : a.WF) (hb : b.WF) : a.lt b = true ↔ a.pos < b.pos := by
  simp [lt, cmp_eq a b ha hb, Nat.compare_eq_lt]

theorem le_iff {a b : TableIndex} (ha : a.WF) (hb : b.WF) : a.le b = true ↔ a.pos ≤ b.pos := by
  simp [le, cmp_eq a b ha hb, Nat.compare_eq_gt]

theorem beq_iff {a b : TableIndex} (ha : a.WF) (hb : b.WF) : a.beq b = true ↔ a = b := by
  rw [beq, cmp_eq a b ha hb]
  constructor
  · intro h
    simp only [beq_iff_eq, Nat.compare_eq_eq] at h
    exact pos_inj ha hb h
  · rintro rfl; simp

theorem FIRST_WF : FIRST.WF := by simp [FIRST, WF]
theorem SECOND_WF : SECOND.WF := by simp [SECOND, WF]
theorem LAST_WF : LAST.WF := by simp [LAST, WF, U128, BYTES_PER_AES_CALL]
theorem FIRST_pos : FIRST.pos = 0 := rfl
theorem SECOND_pos : SECOND.pos = 1 := rfl
theorem LAST_pos : LAST.pos = TABLE - 1 := by
  simp [LAST, pos, U128, BYTES_PER_AES_CALL, TABLE]

instance (t : TableIndex) : Decidable t.WF := by unfold WF; infer_instance

theorem decremented_pos {t : TableIndex} (h : t.WF) (h0 : 0 < t.pos) :
    t.decremented.pos = t.pos - 1 := by
  have := h.pos_lt
  rw [decremented, decrease_pos h 1 (by omega)]
  simp only [TABLE] at *
  omega

theorem incremented_pos {t : TableIndex} (h : t.pos + 1 < TABLE) :
    t.incremented.pos = t.pos + 1 := by
  rw [incremented, increase_pos]
  simp only [TABLE] at *
  omega

theorem distance_lt {a b : TableIndex} (ha : a.WF) (hb : b.WF) (h : a.pos < b.pos) :
    distance a b = none := by
  rw [distance, cmp_eq a b ha hb, Nat.compare_eq_ite_lt]
  simp [h]

theorem distance_exact {a b : TableIndex} (ha : a.WF) (hb : b.WF) (h : b.pos ≤ a.pos)
    (hs : a.pos - b.pos < 2 ^ 128 - 16) : distance a b = some (a.pos - b.pos) := by
  rw [distance, cmp_eq a b ha hb, Nat.compare_eq_ite_lt, if_neg (by omega)]
  obtain ⟨h1, h2⟩ := ha
  obtain ⟨h3, h4⟩ := hb
  by_cases heq : b.pos < a.pos
  · rw [if_pos heq]
    simp only [pos, satMul, satAdd, U128, BYTES_PER_AES_CALL, Option.some.injEq] at *
    omega
  · rw [if_neg heq]
    simp only [Option.some.injEq]
    omega

theorem distance_saturated {a b : TableIndex} (ha : a.WF) (hb : b.WF)
    (hs : 2 ^ 128 - 16 ≤ a.pos - b.pos) :
    ∃ d, distance a b = some d ∧ 2 ^ 128 - 16 ≤ d ∧ d < 2 ^ 128 := by
  rw [distance, cmp_eq a b ha hb, Nat.compare_eq_ite_lt, if_neg (by omega), if_pos (by omega)]
  obtain ⟨h1, h2⟩ := ha
  obtain ⟨h3, h4⟩ := hb
  simp only [pos, satMul, satAdd, U128, BYTES_PER_AES_CALL] at *
  refine ⟨_, rfl, ?_, ?_⟩ <;> omega

end TableIndex

open TableIndex

/-! ### Batches -/

theorem addU128_release (a b : Nat) : Build.addU128 .release a b = some ((a + b) % 2 ^ 128) := rfl

theorem addU128_ok (m : Build) (a b : Nat) (h : m = .release ∨ a + b < 2 ^ 128) :
    m.addU128 a b = some ((a + b) % 2 ^ 128) := by
  cases m with
  | release => rfl
  | debug =>
    have h : a + b < 2 ^ 128 := by simpa using h
    simp only [Build.addU128, U128, h, if_true, Option.some.injEq]
    omega

theorem mapM_some {β γ : Type} (f : β → Option γ) (g : β → γ) (l : List β)
    (h : ∀ x ∈ l, f x = some (g x)) : l.mapM f = some (l.map g) := by
  induction l with
  | nil => rfl
  | cons a l ih =>
    rw [List.mapM_cons, h a (by simp), ih fun x hx => h x (by simp [hx])]
    rfl

theorem generateBatch_ok {α : Type} (m : Build) (aes : Cipher α) (c : Nat)
    (h : m = .release ∨ c + 7 < 2 ^ 128) :
    generateBatch m aes c =
      some ((List.range 8).map fun k => (List.range 16).map (aes ((c + k) % 2 ^ 128))).flatten := by
  have := mapM_some (fun k => do
    let c ← m.addU128 c k
    pure ((List.range BYTES_PER_AES_CALL).map (aes c)))
    (fun k => (List.range 16).map (aes ((c + k) % 2 ^ 128))) (List.range AES_CALLS_PER_BATCH)
    (by
      intro x hx
      simp only [List.mem_range, AES_CALLS_PER_BATCH] at hx
      rw [addU128_ok m c x (by rcases h with h | h; exact .inl h; right; omega)]
      rfl)
  simp only [generateBatch, this]
  rfl

theorem batch_getElem {α : Type} (aes : Cipher α) (c j : Nat) (hj : j < 128) :
    (((List.range 8).map fun k => (List.range 16).map (aes ((c + k) % 2 ^ 128))).flatten)[j]? =
      some (tableByte aes ((c * 16 + j) % TABLE)) := by
  have key : 
      (((List.range 8).map fun k => (List.range 16).map (aes ((c + k) % 2 ^ 128))).flatten)[j]? =
      some (aes ((c + j / 16) % 2 ^ 128) (j % 16)) := by
    rw [getElem?_flatten_uniform 16 (by omega)]
    · have h1 : j / 16 < 8 := by omega
      have h2 : j % 16 < 16 := by omega
      simp [h1, h2]
    · intro x hx
      simp only [List.mem_map] at hx
      obtain ⟨k, _, rfl⟩ := hx
      simp
  rw [key, tableByte]
  congr 2
  · simp only [TABLE]; omega
  · simp only [TABLE]; omega

end Verif.Csprng
