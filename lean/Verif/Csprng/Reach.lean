import Verif.Csprng.Invariant
/-
Every reachable generator satisfies the invariant; histories of a family of generators.
-/
set_option linter.unusedSectionVars false

namespace Verif.Csprng
open TableIndex

variable {α : Type} [Inhabited α]

theorem inv_of_fromBlockCipher (aes : Cipher α) {start bound : TableIndex} (hs : start.WF)
    (hb : bound.WF) {g : Gen α} (h : fromBlockCipher start bound = some g) :
    Inv aes g ∧ 0 < start.pos ∧ start.pos < bound.pos ∧
      g.state.tableIndex.pos + 1 = start.pos ∧ g.last.pos + 1 = bound.pos := by
  have h1 : start.lt bound = true := by
    cases hh : start.lt bound with
    | true => rfl
    | false => simp [fromBlockCipher, hh] at h
  have h2 : start.pos < bound.pos := (lt_iff hs hb).1 h1
  have h3 : 0 < start.pos := by
    rcases Nat.eq_zero_or_pos start.pos with h0 | h0
    · simp [fromBlockCipher, h1, stateNew_first hs h0] at h
    · exact h0
  obtain ⟨g', e, i, p1, p2⟩ := inv_fromBlockCipher (α := α) aes hs hb h3 h2
  rw [e] at h
  cases h
  exact ⟨i, h3, h2, p1, p2⟩

theorem inv_next {m : Build} {aes : Cipher α} {g g' : Gen α} {o : Option α} (hi : Inv aes g)
    (h : g.next m aes = some (o, g')) : Inv aes g' := by
  by_cases hn : NoOvf m g
  · by_cases hlt : g.state.tableIndex.pos < g.last.pos
    · obtain ⟨g1, h1, hi1, _⟩ := next_step hi hn hlt
      rw [h1] at h; cases h; exact hi1
    · rw [next_end hi (by omega)] at h
      cases h; exact hi
  · -- debug build near the end of the table: the call succeeds only without overflow
    have hm : m = .debug := by
      cases m
      · rfl
      · exact absurd (.inl rfl) hn
    subst hm
    by_cases hlt : g.state.tableIndex.pos < g.last.pos
    · -- the debug and release runs agree when the debug one does not panic
      obtain ⟨g1, h1, hi1, _⟩ := next_step (m := .release) hi (.inl rfl) hlt
      have : g.next .release aes = some (o, g') := by
        have key : ∀ c l, generateBatch .debug aes c = some l →
            generateBatch .release aes c = some l := by
          intro c l hl
          by_cases hc : c + 7 < 2 ^ 128
          · rw [generateBatch_ok .debug aes c (.inr hc)] at hl
            rw [generateBatch_ok .release aes c (.inl rfl)]
            exact hl
          · exfalso
            have : Build.debug.addU128 c 7 = none := by
              exact if_neg hc
            have h8 : List.range AES_CALLS_PER_BATCH = [0, 1, 2, 3, 4, 5, 6, 7] := rfl
            simp only [generateBatch, h8, List.mapM_cons, this] at hl
            simp at hl
        unfold Gen.next at h ⊢
        split
        · rename_i hh; rw [if_pos hh] at h; exact h
        · rename_i hh; rw [if_neg hh] at h
          revert h
          split
          · exact id
          · rename_i heq
            intro h
            cases hb : generateBatch Build.debug aes _ with
            | none => rw [hb] at h; simp at h
            | some buf => rw [hb] at h; rw [key _ _ hb]; exact h
      rw [h1] at this; cases this; exact hi1
    · rw [next_end hi (by omega)] at h
      cases h; exact hi

theorem inv_forkChild (m : Build) (aes : Cipher α) {first : TableIndex} {b i : Nat} {c : Gen α}
    (h : forkChild m first b i = some c) : Inv aes c := by
  unfold forkChild at h
  split at h
  · exact (inv_of_fromBlockCipher aes (increase_WF _ _) (increase_WF _ _) h).1
  · simp at h

theorem inv_tryFork {m : Build} {aes : Cipher α} {g p : Gen α} {n b : Nat}
    {cs : List (Option (Gen α))} (hi : Inv aes g) (h : g.tryFork m n b = .ok cs p) :
    Inv aes p ∧ p.last = g.last ∧ ∀ c, some c ∈ cs → Inv aes c := by
  unfold Gen.tryFork at h
  split at h
  · cases h
  split at h
  · cases h
  split at h
  · cases h
  · cases h
  · rename_i hf
    simp only at h
    split at h
    · cases h
    · rename_i s hs
      split at h
      · cases h
      · rename_i st hst
        cases h
        have hT := hi.bound
        have hle := hi.le
        have hinc : (g.state.tableIndex.incremented).pos = g.state.tableIndex.pos + 1 :=
          incremented_pos (by omega)
        have hcomm : m.mulUsize n b = m.mulUsize b n := by
          cases m <;> simp only [Build.mulUsize, Nat.mul_comm]
        simp only [Gen.isForkInBound, hcomm, hs, Option.some.injEq] at hf
        rw [le_iff (increase_WF _ _) hi.wfLast, increase_pos] at hf
        have hpos := increase_pos g.state.tableIndex.incremented s
        have hne : 0 < (g.state.tableIndex.incremented.increase s).pos := by
          rcases Nat.eq_zero_or_pos (g.state.tableIndex.incremented.increase s).pos with h0 | h0
          · rw [stateNew_first (increase_WF _ _) h0] at hst; cases hst
          · exact h0
        rw [stateNew_ok (increase_WF _ _) hne] at hst
        cases hst
        have hTT : 0 < TABLE := by decide
        refine ⟨inv_fresh aes _ (increase_WF _ _) hne hi.wfLast ?_ hT, rfl, ?_⟩
        · rw [hpos, hinc] at hne ⊢
          have e : (g.state.tableIndex.pos + 1 + s) % TABLE =
              ((g.state.tableIndex.pos + s) % TABLE + 1) % TABLE := by
            rw [Nat.mod_add_mod]; congr 1; omega
          rw [e]
          have := Nat.mod_le ((g.state.tableIndex.pos + s) % TABLE + 1) TABLE
          omega
        · intro c hc
          simp only [List.mem_map] at hc
          obtain ⟨i, _, hc⟩ := hc
          exact inv_forkChild m aes hc

theorem Reachable.inv {m : Build} {aes : Cipher α} {g : Gen α} (h : Reachable m aes g) :
    Inv aes g := by
  induction h with
  | create hs hb h => exact (inv_of_fromBlockCipher aes hs hb h).1
  | next _ h ih => exact inv_next ih h
  | parent _ h ih => exact (inv_tryFork ih h).1
  | child _ h hc ih => exact (inv_tryFork ih h).2.2 _ hc

/-! ### Histories -/

/-- Positions a generator may still output. -/
def future (g : Gen α) : List Nat :=
  List.range' (g.state.tableIndex.pos + 1) (g.last.pos - g.state.tableIndex.pos)

/-- A generator cannot be forked over the end of the table while `r` bytes are still requested. -/
def Safe (r : Nat) (g : Gen α) : Prop :=
  g.last.pos + 2 ^ 64 ≤ TABLE ∨ g.state.tableIndex.pos + r + 2 ^ 64 ≤ TABLE

theorem range'_split (s a b : Nat) : List.range' s (a + b) = List.range' s a ++ List.range' (s + a) b := by
  rw [List.range'_append_1]

theorem futures_children {n b q : Nat} {cs : List (Gen α)} (hlen : cs.length = n)
    (h : ∀ i c, cs[i]? = some c → c.state.tableIndex.pos = q + i * b ∧ c.last.pos = q + (i + 1) * b) :
    cs.flatMap future = List.range' (q + 1) (n * b) := by
  induction cs generalizing n q with
  | nil => simp at hlen; subst hlen; simp
  | cons c cs ih =>
    obtain ⟨h1, h2⟩ := h 0 c (by simp)
    simp only [List.length_cons] at hlen
    subst hlen
    have := @ih cs.length (q + b) rfl (by
      intro i c' hc'
      obtain ⟨h3, h4⟩ := h (i + 1) c' (by simpa using hc')
      have e1 : (i + 1) * b = i * b + b := by rw [Nat.add_mul, Nat.one_mul]
      have e2 : (i + 1 + 1) * b = (i + 1) * b + b := by rw [Nat.add_mul (i + 1), Nat.one_mul]
      constructor <;> omega)
    rw [List.flatMap_cons, this, Nat.add_mul, Nat.one_mul, Nat.add_comm (cs.length * b) b,
      range'_split]
    congr 1
    · simp only [future, h1, h2]
      congr 1 <;> omega
    · congr 1; omega

theorem flatMap_set_perm (f : Gen α → List Nat) {gs : List (Gen α)} {i : Nat} {g : Gen α}
    (h : gs[i]? = some g) (g' : Gen α) {x : List Nat} (hp : (f g).Perm (x ++ f g')) :
    (gs.flatMap f).Perm (x ++ (gs.set i g').flatMap f) := by
  induction gs generalizing i with
  | nil => simp at h
  | cons a gs ih =>
    cases i with
    | zero =>
      simp only [List.getElem?_cons_zero, Option.some.injEq] at h
      subst h
      simp only [List.set_cons_zero, List.flatMap_cons]
      rw [← List.append_assoc]
      exact hp.append_right _
    | succ i =>
      simp only [List.getElem?_cons_succ] at h
      simp only [List.set_cons_succ, List.flatMap_cons]
      refine ((ih h).append_left (f a)).trans ?_
      rw [← List.append_assoc, ← List.append_assoc]
      exact (List.perm_append_comm).append_right _

theorem allSome_map_some {β : Type} (l : List β) : allSome (l.map some) = some l := by
  induction l with
  | nil => rfl
  | cons a l ih => simp [allSome, ih]

theorem tryFork_cases {m : Build} {aes : Cipher α} {g : Gen α} (hi : Inv aes g) {n b : Nat}
    (hfit : m = .debug ∨ n * b < 2 ^ 64) (hw : n * b < 2 ^ 64 → g.state.tableIndex.pos + n * b < TABLE) :
    (∃ e, g.tryFork m n b = .err e g) ∨ g.tryFork m n b = .panic ∨
    (0 < n ∧ 0 < b ∧ n * b < 2 ^ 64 ∧ g.state.tableIndex.pos + n * b ≤ g.last.pos) := by
  by_cases hn : n = 0
  · left; exact ⟨.zeroChildrenCount, by simp [Gen.tryFork, hn]⟩
  by_cases hb : b = 0
  · left; exact ⟨.zeroBytesPerChild, by simp [Gen.tryFork, hn, hb]⟩
  by_cases hlt : n * b < 2 ^ 64
  · by_cases hle : g.state.tableIndex.pos + n * b ≤ g.last.pos
    · right; right; exact ⟨by omega, by omega, hlt, hle⟩
    · left
      refine ⟨.forkTooLarge, ?_⟩
      simp only [Gen.tryFork, hn, hb, if_false, isForkInBound_ok hi hlt (hw hlt), hle, decide_false]
  · right; left
    have hm : m = .debug := by
      rcases hfit with h | h
      · exact h
      · exact absurd h hlt
    subst hm
    have : Build.debug.mulUsize n b = none := by
      exact if_neg hlt
    simp [Gen.tryFork, hn, hb, Gen.isForkInBound, this]

theorem runOps_spec {m : Build} {aes : Cipher α} (ops : List Op) {gs gs' : List (Gen α)}
    {out : List α}
    (hinv : ∀ g ∈ gs, Inv aes g) (hsafe : ∀ g ∈ gs, Safe (requested ops) g)
    (hno : ∀ g ∈ gs, NoOvf m g)
    (hfit : m = .debug ∨ forksFit ops)
    (h : runOps m aes ops gs = some (gs', out)) :
    ∃ ps : List Nat, out = ps.map (tableByte aes) ∧
      (gs.flatMap future).Perm (ps ++ gs'.flatMap future) := by
  induction ops generalizing gs gs' out with
  | nil =>
    simp only [runOps, Option.some.injEq, Prod.mk.injEq] at h
    obtain ⟨rfl, rfl⟩ := h
    exact ⟨[], rfl, by simp⟩
  | cons op ops ih =>
    have hfit' : m = .debug ∨ forksFit ops := by
      rcases hfit with h | h
      · exact .inl h
      · exact .inr fun i n b hm => h i n b (by simp [hm])
    cases op with
    | next i =>
      have hsafe' : ∀ g ∈ gs, Safe (requested ops) g := by
        intro g hg
        rcases hsafe g hg with h1 | h1
        · exact .inl h1
        · right; simp only [requested] at h1; omega
      simp only [runOps] at h
      cases hg : gs[i]? with
      | none => rw [hg] at h; exact ih hinv hsafe' hno hfit' h
      | some g =>
        rw [hg] at h
        simp only at h
        have hmem : g ∈ gs := List.mem_of_getElem? hg
        have hi := hinv g hmem
        have hle := hi.le
        by_cases hlt : g.state.tableIndex.pos < g.last.pos
        · obtain ⟨g1, e1, hi1, hl1, hp1⟩ := next_step hi (hno g hmem) hlt
          rw [e1] at h
          simp only [Option.map_eq_some_iff, Prod.exists, Option.toList_some,
            Prod.mk.injEq] at h
          obtain ⟨gs1, out1, hrun, rfl, rfl⟩ := h
          have hset : ∀ x ∈ gs.set i g1, x ∈ gs ∨ x = g1 := fun x hx =>
            List.mem_or_eq_of_mem_set hx
          obtain ⟨ps, rfl, hperm⟩ := ih (gs := gs.set i g1)
            (by intro x hx; rcases hset x hx with h | rfl; exact hinv x h; exact hi1)
            (by
              intro x hx
              rcases hset x hx with h | rfl
              · exact hsafe' x h
              · rcases hsafe g hmem with h1 | h1
                · left; rw [hl1]; exact h1
                · right; simp only [requested] at h1; omega)
            (by
              intro x hx
              rcases hset x hx with h | rfl
              · exact hno x h
              · have := hno g hmem; simpa [NoOvf, hl1] using this)
            hfit' hrun
          refine ⟨(g.state.tableIndex.pos + 1) :: ps, by simp, ?_⟩
          have hf : (future g).Perm ([g.state.tableIndex.pos + 1] ++ future g1) := by
            simp only [future, hp1, hl1]
            have : g.last.pos - g.state.tableIndex.pos =
              1 + (g.last.pos - (g.state.tableIndex.pos + 1)) := by omega
            rw [this, range'_split]
            rfl
          refine (flatMap_set_perm future hg g1 hf).trans ?_
          exact (hperm.append_left [g.state.tableIndex.pos + 1])
        · rw [next_end hi (by omega)] at h
          simp only [Option.map_eq_some_iff, Prod.exists, Option.toList_none, List.nil_append,
            Prod.mk.injEq] at h
          obtain ⟨gs1, out1, hrun, rfl, rfl⟩ := h
          have hset : gs.set i g = gs := by
            obtain ⟨hi', rfl⟩ := List.getElem?_eq_some_iff.1 hg
            exact List.set_getElem_self hi'
          rw [hset] at hrun
          exact ih hinv hsafe' hno hfit' hrun
    | fork i n b =>
      have hsafe' : ∀ g ∈ gs, Safe (requested ops) g := by
        intro g hg
        rcases hsafe g hg with h1 | h1
        · exact .inl h1
        · right; simp only [requested] at h1; omega
      simp only [runOps] at h
      cases hg : gs[i]? with
      | none => rw [hg] at h; exact ih hinv hsafe' hno hfit' h
      | some g =>
        rw [hg] at h
        simp only at h
        have hmem : g ∈ gs := List.mem_of_getElem? hg
        have hi := hinv g hmem
        have hle := hi.le
        have hbd := hi.bound
        have hgset : gs.set i g = gs := by
          obtain ⟨hi', rfl⟩ := List.getElem?_eq_some_iff.1 hg
          exact List.set_getElem_self hi'
        rcases tryFork_cases (m := m) hi (n := n) (b := b)
          (by
            rcases hfit with h | h
            · exact .inl h
            · exact .inr (h i n b (by simp)))
          (by
            intro hlt
            rcases hsafe g hmem with h1 | h1
            · omega
            · simp only [requested] at h1; omega) with ⟨e, he⟩ | he | ⟨hn, hb, hlt, hle'⟩
        · rw [he] at h
          simp only [hgset] at h
          exact ih hinv hsafe' hno hfit' h
        · rw [he] at h; simp at h
        · obtain ⟨cs, p, he, hlen, hcs, hip, hpl, hpp⟩ := tryFork_ok (m := m) hi hn hb hlt hle'
          rw [he] at h
          simp only [allSome_map_some] at h
          have hcs' : ∀ c ∈ cs, Inv aes c ∧ c.last.pos ≤ g.last.pos ∧
              c.last.pos ≤ g.state.tableIndex.pos + n * b ∧
              c.state.tableIndex.pos ≤ g.state.tableIndex.pos + n * b := by
            intro c hc
            obtain ⟨j, hj⟩ := List.mem_iff_getElem?.1 hc
            obtain ⟨h1, h2, h3⟩ := hcs j c hj
            have hjn : j < n := by
              rw [← hlen]; exact (List.getElem?_eq_some_iff.1 hj).1
            have e1 : (j + 1) * b ≤ n * b := Nat.mul_le_mul_right b hjn
            have e2 : j * b ≤ n * b := Nat.mul_le_mul_right b (by omega)
            exact ⟨h1, by omega, by omega, by omega⟩
          have hset : ∀ x ∈ gs.set i p ++ cs, x ∈ gs ∨ x = p ∨ x ∈ cs := by
            intro x hx
            rcases List.mem_append.1 hx with hx | hx
            · rcases List.mem_or_eq_of_mem_set hx with h | h
              · exact .inl h
              · exact .inr (.inl h)
            · exact .inr (.inr hx)
          obtain ⟨ps, rfl, hperm⟩ := ih (gs := gs.set i p ++ cs)
            (by
              intro x hx
              rcases hset x hx with h | rfl | h
              · exact hinv x h
              · exact hip
              · exact (hcs' x h).1)
            (by
              intro x hx
              rcases hset x hx with h | rfl | h
              · exact hsafe' x h
              · rcases hsafe g hmem with h1 | h1
                · left; rw [hpl]; exact h1
                · right; simp only [requested] at h1; omega
              · obtain ⟨_, h2, h3, h4⟩ := hcs' x h
                rcases hsafe g hmem with h1 | h1
                · left; omega
                · right; simp only [requested] at h1; omega)
            (by
              intro x hx
              rcases hset x hx with h | rfl | h
              · exact hno x h
              · have := hno g hmem; simpa [NoOvf, hpl] using this
              · obtain ⟨_, h2, _⟩ := hcs' x h
                rcases hno g hmem with h1 | h1
                · exact .inl h1
                · right; omega)
            hfit' h
          refine ⟨ps, rfl, ?_⟩
          refine List.Perm.trans ?_ hperm
          rw [List.flatMap_append, futures_children hlen (fun j c hj => (hcs j c hj).2)]
          have hf : (future g).Perm (List.range' (g.state.tableIndex.pos + 1) (n * b) ++ future p) := by
            simp only [future, hpp, hpl]
            have : g.last.pos - g.state.tableIndex.pos =
              n * b + (g.last.pos - (g.state.tableIndex.pos + n * b)) := by omega
            rw [this, range'_split]
            have e : g.state.tableIndex.pos + n * b + 1 = g.state.tableIndex.pos + 1 + n * b := by omega
            rw [e]
          exact (flatMap_set_perm future hg p hf).trans List.perm_append_comm

end Verif.Csprng
