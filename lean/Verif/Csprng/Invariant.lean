import Verif.Csprng.Lemmas
/-
The generator invariant, and what `next`, `draw` and `try_fork` do to it.
-/
set_option linter.unusedSectionVars false

namespace Verif.Csprng
open TableIndex

variable {α : Type} [Inhabited α]

/-- Invariant of a generator: indices are well formed, the current position does not exceed the last
legal one, and the unread part of the buffer holds the bytes following the current position. -/
structure Inv (aes : Cipher α) (g : Gen α) : Prop where
  wfState : g.state.tableIndex.WF
  wfLast : g.last.WF
  le : g.state.tableIndex.pos ≤ g.last.pos
  bound : g.last.pos + 1 < TABLE
  ptr : g.state.bufferPointer < 128
  buf : ∀ j, g.state.bufferPointer < j → j < 128 →
    g.buffer[j]? =
      some (tableByte aes ((g.state.tableIndex.pos + (j - g.state.bufferPointer)) % TABLE))

/-- The batch computations of the generator cannot overflow. -/
def NoOvf (m : Build) (g : Gen α) : Prop := m = .release ∨ g.last.pos + 128 ≤ TABLE

theorem stateNew_ok {t : TableIndex} (h : t.WF) (h0 : 0 < t.pos) :
    State.new t = some { tableIndex := t.decremented, bufferPointer := 127 } := by
  have : t.beq FIRST = false := by
    rw [Bool.eq_false_iff]
    intro hb
    rw [beq_iff h FIRST_WF] at hb
    rw [hb, FIRST_pos] at h0
    omega
  simp [State.new, this, BYTES_PER_BATCH, BYTES_PER_AES_CALL, AES_CALLS_PER_BATCH]

theorem stateNew_first {t : TableIndex} (h : t.WF) (h0 : t.pos = 0) : State.new t = none := by
  have : t.beq FIRST = true := by
    rw [beq_iff h FIRST_WF]
    exact pos_inj h FIRST_WF (by rw [h0, FIRST_pos])
  simp [State.new, this]

theorem inv_fresh (aes : Cipher α) {t last : TableIndex} (b : List α) (h : t.WF) (h0 : 0 < t.pos)
    (hl : last.WF) (hle : t.pos ≤ last.pos + 1) (hT : last.pos + 1 < TABLE) :
    Inv aes { state := { tableIndex := t.decremented, bufferPointer := 127 },
              last := last, buffer := b } := by
  have hp := decremented_pos h h0
  refine ⟨decrease_WF h 1, hl, ?_, hT, by show 127 < 128; omega, ?_⟩
  · simp only [hp]; omega
  · intro j h1 h2
    simp only at h1
    omega

theorem fromBlockCipher_ok {start bound : TableIndex} (hs : start.WF) (hb : bound.WF)
    (h0 : 0 < start.pos) (h : start.pos < bound.pos) :
    fromBlockCipher (α := α) start bound =
      some { state := { tableIndex := start.decremented, bufferPointer := 127 },
             last := bound.decremented, buffer := List.replicate 128 default } := by
  have hlt : start.lt bound = true := (lt_iff hs hb).2 h
  simp [fromBlockCipher, hlt, stateNew_ok hs h0, BYTES_PER_BATCH, BYTES_PER_AES_CALL,
    AES_CALLS_PER_BATCH]

theorem inv_fromBlockCipher (aes : Cipher α) {start bound : TableIndex} (hs : start.WF)
    (hb : bound.WF) (h0 : 0 < start.pos) (h : start.pos < bound.pos) :
    ∃ g, fromBlockCipher (α := α) start bound = some g ∧ Inv aes g ∧
      g.state.tableIndex.pos + 1 = start.pos ∧ g.last.pos + 1 = bound.pos := by
  refine ⟨_, fromBlockCipher_ok hs hb h0 h, ?_, ?_, ?_⟩
  · apply inv_fresh aes _ hs h0 (decrease_WF hb 1)
    · rw [← decremented, decremented_pos hb (by omega)]
      omega
    · have := hb.pos_lt
      rw [← decremented, decremented_pos hb (by omega)]
      omega
  · simp only; rw [decremented_pos hs h0]; omega
  · simp only; rw [decremented_pos hb (by omega)]; omega

theorem next_end {m : Build} {aes : Cipher α} {g : Gen α} (hi : Inv aes g)
    (h : g.last.pos ≤ g.state.tableIndex.pos) : g.next m aes = some (none, g) := by
  simp [Gen.next, (le_iff hi.wfLast hi.wfState).2 h]

theorem next_step {m : Build} {aes : Cipher α} {g : Gen α} (hi : Inv aes g) (hn : NoOvf m g)
    (h : g.state.tableIndex.pos < g.last.pos) :
    ∃ g', g.next m aes = some (some (tableByte aes (g.state.tableIndex.pos + 1)), g') ∧
      Inv aes g' ∧ g'.last = g.last ∧
      g'.state.tableIndex.pos = g.state.tableIndex.pos + 1 := by
  have hle : g.last.le g.state.tableIndex = false := by
    rw [Bool.eq_false_iff]; intro hc
    rw [le_iff hi.wfLast hi.wfState] at hc
    omega
  have hL := hi.wfLast.pos_lt
  have hpos : (g.state.tableIndex.increase 1).pos = g.state.tableIndex.pos + 1 := by
    apply incremented_pos; omega
  have hmod : (g.state.tableIndex.pos + 1) % TABLE = g.state.tableIndex.pos + 1 :=
    Nat.mod_eq_of_lt (by omega)
  have hptr := hi.ptr
  by_cases hp : g.state.bufferPointer + 1 > 127
  · -- refresh
    have hinc : g.state.increment =
        (.refreshBatchAndOutputByte (g.state.tableIndex.increase 1).aes
            (g.state.tableIndex.increase 1).byte,
          { tableIndex := g.state.tableIndex.increase 1,
            bufferPointer := (g.state.tableIndex.increase 1).byte }) := by
      simp [State.increment, State.increase, BYTES_PER_BATCH, BYTES_PER_AES_CALL,
        AES_CALLS_PER_BATCH, hp]
    obtain ⟨hw1, hw2⟩ := increase_WF g.state.tableIndex 1
    generalize g.state.tableIndex.increase 1 = t' at *
    have ht : t'.aes * 16 + t'.byte = g.state.tableIndex.pos + 1 := hpos
    have hb := generateBatch_ok m aes t'.aes (by
      rcases hn with h1 | h1
      · exact .inl h1
      · right; simp only [TABLE] at h1; omega)
    have hg := fun j hj => batch_getElem aes t'.aes j hj
    generalize ((List.range 8).map fun k =>
      (List.range 16).map (aes ((t'.aes + k) % 2 ^ 128))).flatten = buf at hb hg
    refine ⟨{ g with state := { tableIndex := t', bufferPointer := t'.byte }, buffer := buf },
      ?_, ?_, rfl, ?_⟩
    · simp only [Gen.next, hle, hinc, hb, hg t'.byte (by omega), ht, hmod]
      rfl
    · refine ⟨⟨hw1, hw2⟩, hi.wfLast, ?_, hi.bound, ?_, ?_⟩
      · show t'.pos ≤ g.last.pos
        omega
      · show t'.byte < 128
        omega
      · intro j h1 h2
        simp only at h1 ⊢
        rw [hg j h2]
        congr 3
        simp only [pos]
        omega
    · exact hpos
  · have hinc : g.state.increment =
        (.outputByte (g.state.bufferPointer + 1),
          { tableIndex := g.state.tableIndex.increase 1,
            bufferPointer := g.state.bufferPointer + 1 }) := by
      simp [State.increment, State.increase, BYTES_PER_BATCH, BYTES_PER_AES_CALL,
        AES_CALLS_PER_BATCH]
      omega
    have hb := hi.buf (g.state.bufferPointer + 1) (by omega) (by omega)
    rw [Nat.add_sub_cancel_left, hmod] at hb
    refine ⟨{ g with state := { tableIndex := g.state.tableIndex.increase 1,
                                bufferPointer := g.state.bufferPointer + 1 } }, ?_, ?_, rfl, hpos⟩
    · simp only [Gen.next, hle, hinc, hb]
      rfl
    · refine ⟨increase_WF _ 1, hi.wfLast, ?_, hi.bound, ?_, ?_⟩
      · show (g.state.tableIndex.increase 1).pos ≤ g.last.pos
        omega
      · show g.state.bufferPointer + 1 < 128
        omega
      · intro j h1 h2
        simp only at h1 ⊢
        rw [hi.buf j (by omega) h2, hpos]
        congr 3
        omega

theorem draw_spec {m : Build} {aes : Cipher α} (n : Nat) {g : Gen α} (hi : Inv aes g)
    (hn : NoOvf m g) :
    ∃ g', g.draw m aes n =
        some (expectedDraws aes (g.state.tableIndex.pos + 1) (g.last.pos + 1) n, g') ∧
      Inv aes g' ∧ g'.last = g.last ∧
      g'.state.tableIndex.pos = min (g.state.tableIndex.pos + n) g.last.pos := by
  induction n generalizing g with
  | zero =>
    refine ⟨g, rfl, hi, rfl, ?_⟩
    have := hi.le
    omega
  | succ n ih =>
    have hle := hi.le
    by_cases h : g.state.tableIndex.pos < g.last.pos
    · obtain ⟨g1, h1, hi1, hl1, hp1⟩ := next_step hi hn h
      obtain ⟨g2, h2, hi2, hl2, hp2⟩ := ih hi1 (by simpa [NoOvf, hl1] using hn)
      refine ⟨g2, ?_, hi2, by rw [hl2, hl1], ?_⟩
      · simp only [Gen.draw, h1, h2, Option.some.injEq, Prod.mk.injEq, and_true]
        rw [hp1, hl1]
        simp only [expectedDraws, List.range_succ_eq_map, List.map_cons, List.map_map]
        rw [if_pos (by omega)]
        congr 1
        apply List.map_congr_left
        intro i _
        simp only [Function.comp]
        have : g.state.tableIndex.pos + 1 + 1 + i = g.state.tableIndex.pos + 1 + (i + 1) := by omega
        rw [this]
      · rw [hp2, hp1, hl1]; omega
    · obtain ⟨g2, h2, hi2, hl2, hp2⟩ := ih hi hn
      refine ⟨g2, ?_, hi2, hl2, ?_⟩
      · simp only [Gen.draw, next_end hi (by omega), h2, Option.some.injEq, Prod.mk.injEq, and_true]
        simp only [expectedDraws, List.range_succ_eq_map, List.map_cons, List.map_map]
        rw [if_neg (by omega)]
        congr 1
        apply List.map_congr_left
        intro i _
        simp only [Function.comp]
        rw [if_neg (by omega), if_neg (by omega)]
      · rw [hp2]; omega

/-! ### Forks -/

theorem mulUsize_ok (m : Build) {a b : Nat} (h : a * b < 2 ^ 64) :
    m.mulUsize a b = some (a * b) := by
  cases m
  · simp [Build.mulUsize, USIZE, h]
  · simp only [Build.mulUsize, USIZE]; rw [Nat.mod_eq_of_lt h]

theorem isForkInBound_ok {m : Build} {aes : Cipher α} {g : Gen α} (hi : Inv aes g) {n b : Nat}
    (hnb : n * b < 2 ^ 64) (hw : g.state.tableIndex.pos + n * b < TABLE) :
    g.isForkInBound m n b = some (decide (g.state.tableIndex.pos + n * b ≤ g.last.pos)) := by
  simp only [Gen.isForkInBound, mulUsize_ok m hnb, Option.some.injEq]
  rw [Bool.eq_iff_iff, le_iff (increase_WF _ _) hi.wfLast, increase_pos, Nat.mod_eq_of_lt hw]
  simp

theorem forkChild_ok (m : Build) {first : TableIndex} {n b i : Nat} (hi : i < n)
    (hb : 0 < b) (hnb : n * b < 2 ^ 64) (h0 : 0 < first.pos)
    (hw : first.pos + n * b < TABLE) (aes : Cipher α) :
    ∃ c, forkChild (α := α) m first b i = some c ∧ Inv aes c ∧
      c.state.tableIndex.pos + 1 = first.pos + i * b ∧
      c.last.pos + 1 = first.pos + (i + 1) * b := by
  have h1 : (i + 1) * b ≤ n * b := Nat.mul_le_mul_right b hi
  have h2 : i * b + b = (i + 1) * b := by rw [Nat.add_mul, Nat.one_mul]
  have e1 : m.mulUsize b i = some (i * b) := by
    rw [mulUsize_ok m (by rw [Nat.mul_comm]; omega), Nat.mul_comm]
  have e2 : m.mulUsize b (i + 1) = some ((i + 1) * b) := by
    rw [mulUsize_ok m (by rw [Nat.mul_comm]; omega), Nat.mul_comm]
  have p1 : (first.increase (i * b)).pos = first.pos + i * b := by
    rw [increase_pos, Nat.mod_eq_of_lt (by omega)]
  have p2 : (first.increase ((i + 1) * b)).pos = first.pos + (i + 1) * b := by
    rw [increase_pos, Nat.mod_eq_of_lt (by omega)]
  obtain ⟨c, hc, hi, hs, hl⟩ := inv_fromBlockCipher aes (increase_WF first (i * b))
    (increase_WF first ((i + 1) * b)) (by omega) (by omega)
  refine ⟨c, ?_, hi, by omega, by omega⟩
  simp only [forkChild, e1, e2, hc]

/-- What a successful fork gives. -/
theorem tryFork_ok {m : Build} {aes : Cipher α} {g : Gen α} (hi : Inv aes g) {n b : Nat}
    (hn : 0 < n) (hb : 0 < b) (hnb : n * b < 2 ^ 64)
    (hle : g.state.tableIndex.pos + n * b ≤ g.last.pos) :
    ∃ (children : List (Gen α)) (parent : Gen α), g.tryFork m n b = .ok (children.map some) parent ∧
      children.length = n ∧
      (∀ i c, children[i]? = some c → Inv aes c ∧
        c.state.tableIndex.pos = g.state.tableIndex.pos + i * b ∧
        c.last.pos = g.state.tableIndex.pos + (i + 1) * b) ∧
      Inv aes parent ∧ parent.last = g.last ∧
      parent.state.tableIndex.pos = g.state.tableIndex.pos + n * b := by
  have hT := hi.bound
  have hf : (g.state.tableIndex.incremented).pos = g.state.tableIndex.pos + 1 :=
    incremented_pos (by omega)
  have hc : ∀ i, i < n → ∃ c, forkChild (α := α) m g.state.tableIndex.incremented b i = some c ∧
      Inv aes c ∧
      c.state.tableIndex.pos + 1 = (g.state.tableIndex.incremented).pos + i * b ∧
      c.last.pos + 1 = (g.state.tableIndex.incremented).pos + (i + 1) * b := fun i hin =>
    forkChild_ok m hin hb hnb (by omega) (by omega) aes
  have hp : ((g.state.tableIndex.incremented).increase (n * b)).pos =
      g.state.tableIndex.pos + 1 + n * b := by
    rw [increase_pos, hf, Nat.mod_eq_of_lt (by omega)]
  let child (i : Nat) : Gen α := (forkChild m g.state.tableIndex.incremented b i).getD g
  refine ⟨(List.range n).map child, { g with state :=
      { tableIndex := ((g.state.tableIndex.incremented).increase (n * b)).decremented,
        bufferPointer := 127 } }, ?_, by simp, ?_, ?_, rfl, ?_⟩
  · have h1 : b * n < 2 ^ 64 := by rw [Nat.mul_comm]; exact hnb
    simp only [Gen.tryFork, isForkInBound_ok hi hnb (by omega), mulUsize_ok m h1,
      decide_eq_true hle]
    rw [if_neg (by omega), if_neg (by omega), Nat.mul_comm b n,
      stateNew_ok (increase_WF _ _) (by omega)]
    simp only [ForkResult.ok.injEq, and_true]
    rw [List.map_map]
    apply List.map_congr_left
    intro i hin
    obtain ⟨c, hc, _⟩ := hc i (by simpa using hin)
    simp [child, hc]
  · intro i c hic
    simp only [List.getElem?_map] at hic
    by_cases hin : i < n
    · rw [List.getElem?_range hin] at hic
      obtain ⟨c', hc', hinv, h1, h2⟩ := hc i hin
      simp only [child, hc', Option.map_some, Option.getD_some, Option.some.injEq] at hic
      subst hic
      exact ⟨hinv, by omega, by omega⟩
    · rw [List.getElem?_eq_none (by simpa using hin)] at hic
      simp at hic
  · exact inv_fresh aes _ (increase_WF _ _) (by omega) hi.wfLast (by omega) hT
  · show (((g.state.tableIndex.incremented).increase (n * b)).decremented).pos = _
    rw [decremented_pos (increase_WF _ _) (by omega)]
    omega

end Verif.Csprng
