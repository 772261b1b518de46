import Verif.Random.Model
import Verif.Csprng.Reach
/-
The concrete AES-CTR generator refines the abstract byte source used by the rest of the model.
-/
namespace Verif.Random
open Verif.Csprng

/-- `g` (concrete) and `s` (abstract) are in the same state. -/
structure Refines (m : Build) (aes : Cipher (BitVec 8)) (g : Csprng.Gen (BitVec 8)) (s : Src) :
    Prop where
  inv : Inv aes g
  noOvf : NoOvf m g
  table : ∀ p, s.table p = tableByte aes p
  pos : s.pos = g.state.tableIndex.pos + 1
  bound : s.bound = g.last.pos + 1

/-- A freshly created generator refines the source of its range. -/
theorem refines_create (m : Build) (aes : Cipher (BitVec 8)) (start bound : TableIndex)
    (hs : start.WF) (hb : bound.WF) (h0 : 0 < start.pos) (hlt : start.pos < bound.pos)
    (hovf : m = .release ∨ bound.pos + 127 ≤ TABLE) :
    ∃ g, fromBlockCipher (α := BitVec 8) start bound = some g ∧
      Refines m aes g { table := tableByte aes, pos := start.pos, bound := bound.pos } := by
  obtain ⟨g, e, hi, p1, p2⟩ := inv_fromBlockCipher (α := BitVec 8) aes hs hb h0 hlt
  refine ⟨g, e, hi, ?_, fun _ => rfl, p1.symm, p2.symm⟩
  rcases hovf with h | h
  · exact .inl h
  · right; omega

/-- One byte: the concrete generator returns what the source returns (`None`, hence the panic of
`unwrap`, exactly at the bound). -/
theorem refines_next {m : Build} {aes : Cipher (BitVec 8)} {g : Csprng.Gen (BitVec 8)} {s : Src}
    (h : Refines m aes g s) :
    (∀ b s', s.next = some (b, s') → ∃ g', g.next m aes = some (some b, g') ∧ Refines m aes g' s') ∧
    (s.next = none → g.next m aes = some (none, g)) := by
  obtain ⟨hi, hn, ht, hp, hb⟩ := h
  constructor
  · intro b s' hs
    simp only [Src.next] at hs
    split at hs
    · rename_i hlt
      simp only [Option.some.injEq, Prod.mk.injEq] at hs
      obtain ⟨rfl, rfl⟩ := hs
      obtain ⟨g', e, hi', hl, hp'⟩ := next_step (m := m) hi hn (by omega)
      refine ⟨g', ?_, hi', ?_, ht, ?_, ?_⟩
      · rw [e, ht, hp]
      · simpa [NoOvf, hl] using hn
      · simp only [hp, hp']
      · simp only [hb, hl]
    · cases hs
  · intro hs
    simp only [Src.next] at hs
    split at hs
    · cases hs
    · exact next_end hi (by omega)

/-- Forks: same outcome, and the children and the parent refine the abstract ones. -/
theorem refines_tryFork {m : Build} {aes : Cipher (BitVec 8)} {g : Csprng.Gen (BitVec 8)} {s : Src}
    (h : Refines m aes g s) (n b : Nat) (hfit : n * b < 2 ^ 64) (hend : s.pos + n * b ≤ TABLE) :
    (∀ e, s.tryFork n b = .error e → Gen.tryFork m g n b = .err e g) ∧
    (∀ cs p, s.tryFork n b = .ok (cs, p) → ∃ (cs' : List (Csprng.Gen (BitVec 8))) (p' : Csprng.Gen (BitVec 8)),
      Gen.tryFork m g n b = .ok (cs'.map some) p' ∧
      Refines m aes p' p ∧ cs'.length = cs.length ∧
      ∀ (i : Nat) c', cs'[i]? = some c' → ∃ c, cs[i]? = some c ∧ Refines m aes c' c) := by
  obtain ⟨hi, hno, ht, hp, hb⟩ := h
  have hl := hi.le
  have hbd := hi.bound
  by_cases hn0 : n = 0
  · subst hn0
    refine ⟨?_, ?_⟩
    · intro e he
      simp only [Src.tryFork, if_true, Except.error.injEq] at he
      subst he
      simp [Gen.tryFork]
    · intro cs p he
      simp [Src.tryFork] at he
  by_cases hb0 : b = 0
  · subst hb0
    refine ⟨?_, ?_⟩
    · intro e he
      simp only [Src.tryFork, if_neg hn0, if_true, Except.error.injEq] at he
      subst he
      simp [Gen.tryFork, hn0]
    · intro cs p he
      simp [Src.tryFork, hn0] at he
  by_cases hle : s.pos + n * b ≤ s.bound
  · refine ⟨?_, ?_⟩
    · intro e he
      simp [Src.tryFork, hn0, hb0, hle] at he
    · intro cs p he
      simp only [Src.tryFork, hn0, hb0, hle, if_true, if_false, Except.ok.injEq,
        Prod.mk.injEq] at he
      obtain ⟨rfl, rfl⟩ := he
      obtain ⟨cs', p', e, hlen, hcs, hip, hpl, hpp⟩ :=
        tryFork_ok (m := m) hi (by omega) (by omega) hfit (by omega)
      refine ⟨cs', p', e, ⟨hip, ?_, ht, ?_, ?_⟩, by simp [hlen], ?_⟩
      · simpa [NoOvf, hpl] using hno
      · simp only; omega
      · simp only; rw [hpl]; exact hb
      · intro i c' hc'
        have hin : i < n := by
          have := (List.getElem?_eq_some_iff.1 hc').1
          omega
        obtain ⟨hic, h1, h2⟩ := hcs i c' hc'
        refine ⟨⟨s.table, s.pos + i * b, s.pos + (i + 1) * b⟩,
          by rw [List.getElem?_map, List.getElem?_range hin]; rfl, hic, ?_, ht, ?_, ?_⟩
        · rcases hno with h | h
          · exact .inl h
          · right
            have h3 : (i + 1) * b ≤ n * b := Nat.mul_le_mul_right b hin
            omega
        · simp only; omega
        · simp only; omega
  · refine ⟨?_, ?_⟩
    · intro e he
      simp only [Src.tryFork, hn0, hb0, hle, if_false, Except.error.injEq] at he
      subst he
      have hw : g.state.tableIndex.pos + n * b < TABLE := by omega
      simp only [Gen.tryFork, hn0, hb0, if_false, isForkInBound_ok hi hfit hw]
      have : ¬ g.state.tableIndex.pos + n * b ≤ g.last.pos := by omega
      simp only [this, decide_false]
    · intro cs p he
      simp [Src.tryFork, hn0, hb0, hle] at he

end Verif.Random
