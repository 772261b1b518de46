import Verif.Csprng.Stream
import Verif.Csprng.Props
/-
C117. What the program of concrete-csprng writes.
-/
namespace Verif.Csprng
open TableIndex

variable {α : Type} [Inhabited α]

theorem fillBuffer_spec {m : Build} {aes : Cipher α} : ∀ (buf : List α) {g : Gen α}, Inv aes g → NoOvf m g →
    ∃ g' out, fillBuffer m aes buf g = some (out, g') ∧ Inv aes g' ∧ g'.last = g.last ∧
      g'.state.tableIndex.pos = min (g.state.tableIndex.pos + buf.length) g.last.pos ∧ out.length = buf.length ∧
      ∀ (j : Nat) d, j < buf.length → out.getD j d =
        if g.state.tableIndex.pos + 1 + j < g.last.pos + 1 then tableByte aes (g.state.tableIndex.pos + 1 + j) else buf.getD j d
  | [], g, hi, _ => ⟨g, [], rfl, hi, rfl, by have := hi.le; simp; omega, rfl, fun j d h => by simp at h⟩
  | b :: bs, g, hi, hn => by
    have hle := hi.le
    by_cases h : g.state.tableIndex.pos < g.last.pos
    · obtain ⟨g1, h1, hi1, hl1, hp1⟩ := next_step hi hn h
      obtain ⟨g2, out, h2, hi2, hl2, hp2, hlen, hv⟩ := fillBuffer_spec bs hi1 (by simpa [NoOvf, hl1] using hn)
      refine ⟨g2, tableByte aes (g.state.tableIndex.pos + 1) :: out, by simp only [fillBuffer, h1, h2], hi2, by rw [hl2, hl1], ?_, by simp [hlen], ?_⟩
      · rw [hp2, hp1, hl1]; simp only [List.length_cons]; omega
      · intro j d hj
        cases j with
        | zero => simp only [List.getD_cons_zero]; rw [if_pos (by omega), Nat.add_zero]
        | succ j =>
          have := hv j d (by simpa using hj)
          rw [List.getD_cons_succ, List.getD_cons_succ, this, hp1, hl1,
            show g.state.tableIndex.pos + 1 + 1 + j = g.state.tableIndex.pos + 1 + (j + 1) by omega]
    · have h1 := next_end (m := m) hi (by omega)
      refine ⟨g, b :: bs, by simp only [fillBuffer, h1], hi, rfl, by omega, rfl, fun j d hj => ?_⟩
      rw [if_neg (by omega)]

omit [Inhabited α] in
theorem getD_append' (a b : List α) (i : Nat) (d : α) :
    (a ++ b).getD i d = if i < a.length then a.getD i d else b.getD (i - a.length) d := by
  simp only [List.getD_eq_getElem?_getD, List.getElem?_append]
  split <;> rfl

/-- The first `n` turns: what they write, and the buffer and the generator they leave. -/
theorem written_spec {m : Build} {aes : Cipher α} : ∀ (n : Nat) (buf : List α) {g : Gen α}, Inv aes g → NoOvf m g →
    ∃ out buf' g', (∀ k, written m aes (n + k) buf g = (written m aes k buf' g').map (out ++ ·)) ∧
      Inv aes g' ∧ g'.last = g.last ∧ g'.state.tableIndex.pos = min (g.state.tableIndex.pos + n * buf.length) g.last.pos ∧
      buf'.length = buf.length ∧ out.length = n * buf.length ∧ buf' = (buf ++ out).drop (n * buf.length) ∧
      ∀ (i : Nat) d, i < n * buf.length → g.state.tableIndex.pos + 1 + i < g.last.pos + 1 →
        out.getD i d = tableByte aes (g.state.tableIndex.pos + 1 + i)
  | 0, buf, g, hi, _ => ⟨[], buf, g, fun k => by rw [Nat.zero_add]; simp, hi, rfl,
      by have := hi.le; omega, rfl, by simp, by simp, fun i d h => by omega⟩
  | n + 1, buf, g, hi, hn => by
    have hle := hi.le
    obtain ⟨g1, b1, h1, hi1, hl1, hp1, hlen, hv⟩ := fillBuffer_spec (m := m) buf hi hn
    obtain ⟨out, buf', g', h2, hi2, hl2, hp2, hb2, hlen2, hd2, hv2⟩ := written_spec n b1 hi1 (by simpa [NoOvf, hl1] using hn)
    rw [hlen] at hp2 hb2 hlen2 hd2 hv2
    have hmul : (n + 1) * buf.length = n * buf.length + buf.length := by rw [Nat.add_mul, Nat.one_mul]
    refine ⟨b1 ++ out, buf', g', ?_, hi2, by rw [hl2, hl1], by rw [hp2, hp1, hl1]; omega, hb2,
      by rw [List.length_append, hlen2, hlen]; omega, ?_, ?_⟩
    · intro k
      rw [show n + 1 + k = n + k + 1 by omega, written, h1]
      simp only [h2 k]
      cases written m aes k buf' g' with
      | none => rfl
      | some o => simp
    · rw [hd2, hmul, Nat.add_comm, ← List.drop_drop, List.drop_left]
    · intro i d hin hb
      rw [getD_append', hlen]
      by_cases hj : i < buf.length
      · rw [if_pos hj, hv i d hj, if_pos hb]
      · have e : min (g.state.tableIndex.pos + buf.length) g.last.pos = g.state.tableIndex.pos + buf.length := by omega
        rw [if_neg hj, hv2 (i - buf.length) d (by omega) (by rw [hp1, hl1, e]; omega), hp1, e]
        congr 1; omega

theorem written_end {m : Build} {aes : Cipher α} (buf : List α) {g : Gen α} (hi : Inv aes g)
    (h : g.last.pos ≤ g.state.tableIndex.pos) : ∀ k, written m aes k buf g = some (List.replicate k buf).flatten
  | 0 => rfl
  | k + 1 => by
    have h1 : fillBuffer m aes buf g = some (buf, g) := by
      cases buf with
      | nil => rfl
      | cons b bs => rw [fillBuffer, next_end hi h]
    rw [written, h1]
    simp only [written_end buf hi h k]
    rw [List.replicate_succ, List.flatten_cons]

theorem default_gen (aes : Cipher α) : ∃ g : Gen α, Gen.new none none = some g ∧ Inv aes g ∧
    g.state.tableIndex.pos + 1 = 1 ∧ g.last.pos + 1 = 2 ^ 132 - 1 := by
  obtain ⟨g, e, hi, p1, p2⟩ := inv_fromBlockCipher (α := α) aes SECOND_WF LAST_WF (by rw [SECOND_pos]; decide)
    (by rw [SECOND_pos, LAST_pos]; decide)
  rw [SECOND_pos] at p1
  rw [LAST_pos] at p2
  exact ⟨g, e, hi, p1, p2⟩

/-- C117: the program writes the bytes of the table in order, from the second, without leaving out or repeating any, up to the
last but one of the `2^132` bytes of the table. (In a release build; a debug build panics at the end of the table, see
`C01_debug_panics_near_table_end`.) -/
theorem C117_stream (aes : Cipher α) (zero : α) (n : Nat) :
    ∃ out, mainOutput .release aes zero n = some out ∧ out.length = 16 * n ∧
      ∀ i, i < 16 * n → i < 2 ^ 132 - 2 → out.getD i zero = tableByte aes (1 + i) := by
  obtain ⟨g, e, hi, p1, p2⟩ := default_gen aes
  obtain ⟨out, buf', g', h1, -, -, -, -, hlen, -, hv⟩ := written_spec (m := .release) n (List.replicate 16 zero) hi (.inl rfl)
  rw [List.length_replicate] at hlen hv
  refine ⟨out, ?_, by omega, fun i hi1 hi2 => ?_⟩
  · have := h1 0
    rw [Nat.add_zero] at this
    simp only [mainOutput, e, this, written, Option.map_some, List.append_nil]
  · rw [hv i zero (by omega) (by omega), p1]

/-- C117 (partial): they are the bytes that successive calls of `next` on the generator return. Missing: past the end of the
table, where it is false (`C117_repeats_violated`). -/
theorem C117_draws_partial (aes : Cipher α) (zero : α) (n : Nat) (hn : 16 * n ≤ 2 ^ 132 - 2) :
    ∃ g g' out, (Gen.new none none : Option (Gen α)) = some g ∧ mainOutput .release aes zero n = some out ∧
      g.draw .release aes (16 * n) = some (out.map some, g') := by
  obtain ⟨out, h1, h2, h3⟩ := C117_stream aes zero n
  obtain ⟨g, e, hd⟩ := C01_default_generator aes
  obtain ⟨g', hd⟩ := hd (16 * n)
  refine ⟨g, g', out, e, h1, ?_⟩
  rw [hd]
  congr 2
  apply List.ext_getElem?
  intro i
  rw [expectedDraws, List.getElem?_map, List.getElem?_map]
  by_cases h : i < 16 * n
  · have := h3 i h (by omega)
    rw [List.getD_eq_getElem?_getD, List.getElem?_eq_getElem (by omega), Option.getD_some] at this
    rw [List.getElem?_range h, List.getElem?_eq_getElem (by omega), Option.map_some, Option.map_some, if_pos (by omega), this]
  · rw [List.getElem?_eq_none (by simp; omega), List.getElem?_eq_none (by omega)]; rfl

example : 16 * 1000 ≤ 2 ^ 132 - 2 := by decide

/-- Two turns of the program: the bytes 1 to 32 of the table. -/
example : mainOutput .release (fun a b => a * 16 + b) 0 2 = some (List.range' 1 32) := by decide +kernel

/-- C117 is violated after `2^128` turns: the documented infinite stream of random bytes is then the same 16 bytes, again and
again, without an error. -/
theorem C117_repeats_violated (aes : Cipher α) (zero : α) (n k : Nat) (hn : 2 ^ 128 ≤ n) :
    ∃ out last, mainOutput .release aes zero n = some out ∧ out.drop (16 * n - 16) = last ∧ last.length = 16 ∧
      mainOutput .release aes zero (n + k) = some (out ++ (List.replicate k last).flatten) := by
  obtain ⟨g, e, hi, p1, p2⟩ := default_gen aes
  obtain ⟨out, buf', g', h1, hi', hl, hp, hb, hlen, hd, -⟩ := written_spec (m := .release) n (List.replicate 16 zero) hi (.inl rfl)
  rw [List.length_replicate] at hlen hp hb hd
  refine ⟨out, buf', ?_, ?_, hb, ?_⟩
  · have := h1 0
    rw [Nat.add_zero] at this
    simp only [mainOutput, e, this, written, Option.map_some, List.append_nil]
  · rw [hd, show n * 16 = 16 + (16 * n - 16) by omega, ← List.drop_drop]
    rw [List.drop_left' (by simp)]
  · simp only [mainOutput, e, h1 k]
    rw [written_end buf' hi' (by rw [hl, hp]; omega) k]
    rfl

end Verif.Csprng
