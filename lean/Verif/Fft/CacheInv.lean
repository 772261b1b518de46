import Verif.Fft.Cache
/-
Invariant of the cache of Fourier plans.
-/
namespace Verif.Fft.Cache

variable {P : Type}

/-- What is known of a thread at each position. -/
def PcOk (s : State P) (n : Nat) : Pc P → Prop
  | .start => True
  | .inserting => True
  | .unlockW => ∃ id, find s.map n = some id
  | .lookup => ∃ id, find s.map n = some id
  | .cloning => ∃ id, find s.map n = some id
  | .unlockR c => c = find s.map n ∧ ∃ id, find s.map n = some id
  | .getting id => find s.map n = some id
  | .init id => find s.map n = some id ∧ s.cells[id]? = some .busy
  | .done p => ∃ id, find s.map n = some id ∧ s.cells[id]? = some (.full p)
  | .unwrapPanic => False
  | .initPanic => (n, none) ∈ s.log

/-- The number of successful initialisations of a size. -/
def successes (log : List (Nat × Option P)) (n : Nat) : Nat := (log.filter fun e => e.1 == n && e.2.isSome).length

structure Inv (s : State P) : Prop where
  key : ∀ n id, find s.map n = some id → id < s.cells.length
  inj : ∀ n m id, find s.map n = some id → find s.map m = some id → n = m
  wr : ∀ t : Nat, s.writer = some t ↔ ∃ n : Nat, s.threads[t]? = some (n, .inserting) ∨ s.threads[t]? = some (n, .unlockW)
  rd : ∀ t : Nat, t ∈ s.readers ↔ ∃ n : Nat, s.threads[t]? = some (n, .cloning) ∨ ∃ c, s.threads[t]? = some (n, .unlockR c)
  excl : s.writer ≠ none → s.readers = []
  nd : s.readers.Nodup
  th : ∀ (t n : Nat) (pc : Pc P), s.threads[t]? = some (n, pc) → PcOk s n pc
  one : ∀ t t' n n' id : Nat, s.threads[t]? = some (n, .init id) → s.threads[t']? = some (n', .init id) → t = t'
  busy : ∀ id : Nat, s.cells[id]? = some .busy → ∃ t n : Nat, s.threads[t]? = some (n, .init id)
  logged : ∀ n p, (n, some p) ∈ s.log ↔ ∃ id, find s.map n = some id ∧ s.cells[id]? = some (.full p)
  once : ∀ n, successes s.log n ≤ 1

theorem get_set {α : Type} {l : List α} {t : Nat} {x y : α} (h : l[t]? = some x) (t' : Nat) :
    (l.set t y)[t']? = if t' = t then some y else l[t']? := by
  have ht : t < l.length := (List.getElem?_eq_some_iff.1 h).1
  rw [List.getElem?_set]
  by_cases e : t = t'
  · subst e; simp [ht]
  · rw [if_neg e, if_neg (fun h => e h.symm)]

theorem find_cons (map : List (Nat × Nat)) (n id m : Nat) :
    find ((n, id) :: map) m = if n = m then some id else find map m := by
  unfold find
  rw [List.find?_cons]
  by_cases h : n = m
  · simp [h]
  · have : (n == m) = false := by simpa using h
    rw [if_neg h, this]

theorem successes_zero {log : List (Nat × Option P)} {n : Nat} (h : ∀ p, (n, some p) ∉ log) : successes log n = 0 := by
  unfold successes
  rw [List.length_eq_zero_iff, List.filter_eq_nil_iff]
  rintro ⟨m, o⟩ he hc
  simp only [Bool.and_eq_true, beq_iff_eq] at hc
  obtain ⟨rfl, h2⟩ := hc
  cases o with
  | none => simp at h2
  | some p => exact h p he

theorem successes_cons (log : List (Nat × Option P)) (n m : Nat) (o : Option P) :
    successes ((n, o) :: log) m = (if n = m ∧ o.isSome then 1 else 0) + successes log m := by
  unfold successes
  rw [List.filter_cons]
  by_cases h : n = m ∧ o.isSome
  · rw [if_pos h, if_pos (by simp [h.1, h.2])]; simp [Nat.add_comm]
  · rw [if_neg h, if_neg (by simpa using h)]; simp

theorem inv_initial (sizes : List Nat) : Inv (initial P sizes) := by
  have hth : ∀ (t n : Nat) (pc : Pc P), (initial P sizes).threads[t]? = some (n, pc) → pc = .start := by
    intro t n pc h
    simp only [initial, List.getElem?_map, Option.map_eq_some_iff] at h
    obtain ⟨a, _, h⟩ := h
    cases h
    rfl
  constructor
  · intro n id h; simp [initial, find] at h
  · intro n m id h; simp [initial, find] at h
  · intro t
    constructor
    · intro h; simp [initial] at h
    · rintro ⟨n, h | h⟩ <;> exact absurd (hth _ _ _ h) (by simp)
  · intro t
    constructor
    · intro h; simp [initial] at h
    · rintro ⟨n, h | ⟨c, h⟩⟩ <;> exact absurd (hth _ _ _ h) (by simp)
  · intro h; simp [initial] at h
  · simp [initial]
  · intro t n pc h
    rw [hth t n pc h]
    trivial
  · intro t t' n n' id h
    exact absurd (hth _ _ _ h) (by simp)
  · intro id h; simp [initial] at h
  · intro n p; simp [initial, find]
  · intro n; simp [initial, successes]

theorem inv_step {s s' : State P} {t : Nat} {o : Option P} (h : Inv s) (hs : step s t o = some s') : Inv s' := by
  unfold step at hs
  cases ht : s.threads[t]? with
  | none => rw [ht] at hs; exact absurd hs (by simp)
  | some x =>
    obtain ⟨n, pc⟩ := x
    rw [ht] at hs
    have hpc := h.th t n pc ht
    have hg := fun y => get_set (y := y) ht
    cases pc with
    | start =>
      dsimp only at hs
      split at hs
      · rename_i hc
        cases hs
        constructor <;> simp only [State.goto, hg]
        · exact h.key
        · exact h.inj
        · intro t'
          have := h.wr t'
          by_cases e : t' = t
          · subst e; simp
          · simp only [if_neg e]
            grind
        · intro t'
          have := h.rd t'
          by_cases e : t' = t
          · subst e; simp only [if_true]; grind
          · simp only [if_neg e]
            grind
        · intro _; exact hc.2
        · exact h.nd
        · intro t' m pc
          have := h.th t' m pc
          by_cases e : t' = t
          · subst e; simp only [if_true]; intro h'; cases h'; trivial
          · simp only [if_neg e]
            intro h'
            cases pc <;> exact this h'
        · have := h.one
          grind
        · have := h.busy
          grind
        · exact h.logged
        · exact h.once
      · exact absurd hs (by simp)
    | inserting =>
      dsimp only at hs
      split at hs
      · rename_i id hf
        cases hs
        constructor <;> simp only [State.goto, hg]
        · exact h.key
        · exact h.inj
        · intro t'
          have := h.wr t'
          have := h.wr t
          by_cases e : t' = t
          · subst e; simp only [if_true]; grind
          · simp only [if_neg e]
            grind
        · intro t'
          have := h.rd t'
          have := h.rd t
          have := h.nd
          by_cases e : t' = t
          · subst e; simp only [if_true]; grind [List.Nodup.mem_erase_iff]
          · simp only [if_neg e]
            grind [List.Nodup.mem_erase_iff]
        · exact h.excl
        · exact h.nd
        · intro t' m pc
          have := h.th t' m pc
          by_cases e : t' = t
          · subst e; simp only [if_true]; intro h'; cases h'; simp only [PcOk] at hpc ⊢; grind
          · simp only [if_neg e]
            intro h'
            have := this h'
            cases pc <;> simp only [PcOk] at this ⊢ <;> grind
        · have := h.one
          grind
        · have := h.busy
          grind
        · exact h.logged
        · exact h.once
      · rename_i hf
        have hk := h.key
        have hf' := find_cons s.map n s.cells.length
        cases hs
        constructor <;> simp only [State.goto, hg]
        · intro m id; rw [hf']; grind
        · intro m m' id; rw [hf', hf']; have := h.inj m m' id; have := hk m id; have := hk m' id; grind
        · intro t'
          have := h.wr t'
          have := h.wr t
          by_cases e : t' = t
          · subst e; simp only [if_true]; grind
          · simp only [if_neg e]
            grind
        · intro t'
          have := h.rd t'
          have := h.rd t
          have := h.nd
          by_cases e : t' = t
          · subst e; simp only [if_true]; grind [List.Nodup.mem_erase_iff]
          · simp only [if_neg e]
            grind [List.Nodup.mem_erase_iff]
        · exact h.excl
        · exact h.nd
        · intro t' m pc
          have := h.th t' m pc
          by_cases e : t' = t
          · subst e; simp only [if_true]; intro h'; cases h'; simp only [PcOk, hf'] at hpc ⊢; simp
          · simp only [if_neg e]
            intro h'
            have := this h'
            cases pc <;> simp only [PcOk, hf'] at this ⊢ <;> grind
        · have := h.one
          grind
        · intro id hb
          have := h.busy id (by grind)
          grind
        · intro m p
          rw [h.logged, hf']
          grind
        · exact h.once
    | unlockW =>
      dsimp only at hs
      · have hw := (h.wr t).2 ⟨n, Or.inr ht⟩
        cases hs
        constructor <;> simp only [State.goto, hg]
        · exact h.key
        · exact h.inj
        · intro t'
          have := h.wr t'
          have := h.wr t
          by_cases e : t' = t
          · subst e; simp only [if_true]; grind
          · simp only [if_neg e]
            grind
        · intro t'
          have := h.rd t'
          have := h.rd t
          have := h.nd
          by_cases e : t' = t
          · subst e; simp only [if_true]; grind [List.Nodup.mem_erase_iff]
          · simp only [if_neg e]
            grind [List.Nodup.mem_erase_iff]
        · intro h'; exact absurd rfl h'
        · exact h.nd
        · intro t' m pc
          have := h.th t' m pc
          by_cases e : t' = t
          · subst e; simp only [if_true]; intro h'; cases h'; simp only [PcOk] at hpc ⊢; grind
          · simp only [if_neg e]
            intro h'
            have := this h'
            cases pc <;> simp only [PcOk] at this ⊢ <;> grind
        · have := h.one
          grind
        · have := h.busy
          grind
        · exact h.logged
        · exact h.once
    | lookup =>
      dsimp only at hs
      split at hs
      · rename_i hc
        cases hs
        constructor <;> simp only [State.goto, hg]
        · exact h.key
        · exact h.inj
        · intro t'
          have := h.wr t'
          have := h.wr t
          by_cases e : t' = t
          · subst e; simp only [if_true]; grind
          · simp only [if_neg e]
            grind
        · intro t'
          have := h.rd t'
          have := h.rd t
          have := h.nd
          by_cases e : t' = t
          · subst e; simp only [if_true]; grind [List.Nodup.mem_erase_iff]
          · simp only [if_neg e]
            grind [List.Nodup.mem_erase_iff]
        · intro h'; exact absurd hc h'
        · refine List.nodup_cons.2 ⟨?_, h.nd⟩
          rw [h.rd]
          grind
        · intro t' m pc
          have := h.th t' m pc
          by_cases e : t' = t
          · subst e; simp only [if_true]; intro h'; cases h'; simp only [PcOk] at hpc ⊢; grind
          · simp only [if_neg e]
            intro h'
            have := this h'
            cases pc <;> simp only [PcOk] at this ⊢ <;> grind
        · have := h.one
          grind
        · have := h.busy
          grind
        · exact h.logged
        · exact h.once
      · exact absurd hs (by simp)
    | cloning =>
      dsimp only at hs
      · cases hs
        constructor <;> simp only [State.goto, hg]
        · exact h.key
        · exact h.inj
        · intro t'
          have := h.wr t'
          have := h.wr t
          by_cases e : t' = t
          · subst e; simp only [if_true]; grind
          · simp only [if_neg e]
            grind
        · intro t'
          have := h.rd t'
          have := h.rd t
          have := h.nd
          by_cases e : t' = t
          · subst e; simp only [if_true]; grind [List.Nodup.mem_erase_iff]
          · simp only [if_neg e]
            grind [List.Nodup.mem_erase_iff]
        · exact h.excl
        · exact h.nd
        · intro t' m pc
          have := h.th t' m pc
          by_cases e : t' = t
          · subst e; simp only [if_true]; intro h'; cases h'; simp only [PcOk] at hpc ⊢; grind
          · simp only [if_neg e]
            intro h'
            have := this h'
            cases pc <;> simp only [PcOk] at this ⊢ <;> grind
        · have := h.one
          grind
        · have := h.busy
          grind
        · exact h.logged
        · exact h.once
    | unlockR c =>
      dsimp only at hs
      split at hs
      · rename_i hf
        exact absurd hpc (by simp only [PcOk]; grind)
      · rename_i id hf
        cases hs
        constructor <;> simp only [State.goto, hg]
        · exact h.key
        · exact h.inj
        · intro t'
          have := h.wr t'
          have := h.wr t
          by_cases e : t' = t
          · subst e; simp only [if_true]; grind
          · simp only [if_neg e]
            grind
        · intro t'
          have := h.rd t'
          have := h.rd t
          have := h.nd
          by_cases e : t' = t
          · subst e; simp only [if_true]; grind [List.Nodup.mem_erase_iff]
          · simp only [if_neg e]
            grind [List.Nodup.mem_erase_iff]
        · intro h'; rw [h.excl h']; rfl
        · exact h.nd.erase _
        · intro t' m pc
          have := h.th t' m pc
          by_cases e : t' = t
          · subst e; simp only [if_true]; intro h'; cases h'; simp only [PcOk] at hpc ⊢; grind
          · simp only [if_neg e]
            intro h'
            have := this h'
            cases pc <;> simp only [PcOk] at this ⊢ <;> grind
        · have := h.one
          grind
        · have := h.busy
          grind
        · exact h.logged
        · exact h.once
    | getting id =>
      dsimp only at hs
      split at hs
      · rename_i p hf
        cases hs
        constructor <;> simp only [State.goto, hg]
        · exact h.key
        · exact h.inj
        · intro t'
          have := h.wr t'
          have := h.wr t
          by_cases e : t' = t
          · subst e; simp only [if_true]; grind
          · simp only [if_neg e]
            grind
        · intro t'
          have := h.rd t'
          have := h.rd t
          have := h.nd
          by_cases e : t' = t
          · subst e; simp only [if_true]; grind [List.Nodup.mem_erase_iff]
          · simp only [if_neg e]
            grind [List.Nodup.mem_erase_iff]
        · exact h.excl
        · exact h.nd
        · intro t' m pc
          have := h.th t' m pc
          by_cases e : t' = t
          · subst e; simp only [if_true]; intro h'; cases h'; simp only [PcOk] at hpc ⊢; grind
          · simp only [if_neg e]
            intro h'
            have := this h'
            cases pc <;> simp only [PcOk] at this ⊢ <;> grind
        · have := h.one
          grind
        · have := h.busy
          grind
        · exact h.logged
        · exact h.once
      · rename_i hf
        have hcs := fun y => get_set (y := y) hf
        cases hs
        constructor <;> simp only [State.goto, hg]
        · intro m id'; rw [List.length_set]; exact h.key m id'
        · exact h.inj
        · intro t'
          have := h.wr t'
          have := h.wr t
          by_cases e : t' = t
          · subst e; simp only [if_true]; grind
          · simp only [if_neg e]
            grind
        · intro t'
          have := h.rd t'
          have := h.rd t
          have := h.nd
          by_cases e : t' = t
          · subst e; simp only [if_true]; grind [List.Nodup.mem_erase_iff]
          · simp only [if_neg e]
            grind [List.Nodup.mem_erase_iff]
        · exact h.excl
        · exact h.nd
        · intro t' m pc
          have := h.th t' m pc
          by_cases e : t' = t
          · subst e; simp only [if_true]; intro h'; cases h'; simp only [PcOk] at hpc ⊢; grind
          · simp only [if_neg e]
            intro h'
            have := this h'
            cases pc <;> simp only [PcOk] at this ⊢ <;> grind
        · intro t1 t2 n1 n2 id'
          have h1 := h.one t1 t2 n1 n2 id'
          have h2 := h.th t1 n1 (.init id')
          have h3 := h.th t2 n2 (.init id')
          simp only [PcOk] at h2 h3
          grind
        · intro id' hb
          have h1 := h.busy id'
          rw [hcs] at hb
          by_cases e : id' = id
          · exact ⟨t, n, by rw [if_pos rfl, e]⟩
          · rw [if_neg e] at hb
            obtain ⟨t', n', h2⟩ := h1 hb
            exact ⟨t', n', by grind⟩
        · intro m p
          rw [h.logged]
          grind
        · exact h.once
      · exact absurd hs (by simp)
    | init id =>
      dsimp only at hs
      simp only [PcOk] at hpc
      have hcs := fun y => get_set (y := y) hpc.2
      split at hs
      · rename_i p
        cases hs
        constructor <;> simp only [State.goto, hg]
        · intro m id'; rw [List.length_set]; exact h.key m id'
        · exact h.inj
        · intro t'
          have := h.wr t'
          have := h.wr t
          by_cases e : t' = t
          · subst e; simp only [if_true]; grind
          · simp only [if_neg e]
            grind
        · intro t'
          have := h.rd t'
          have := h.rd t
          have := h.nd
          by_cases e : t' = t
          · subst e; simp only [if_true]; grind [List.Nodup.mem_erase_iff]
          · simp only [if_neg e]
            grind [List.Nodup.mem_erase_iff]
        · exact h.excl
        · exact h.nd
        · intro t' m pc
          have := h.th t' m pc
          by_cases e : t' = t
          · subst e; simp only [if_true]; intro h'; cases h'; simp only [PcOk] at hpc ⊢; grind
          · simp only [if_neg e]
            intro h'
            have := this h'
            have ho : ∀ id', pc = .init id' → id' ≠ id := fun id' hp he => e (h.one t' t m n id (by rw [h', hp, he]) ht)
            cases pc <;> simp only [PcOk] at this ⊢ <;> grind
        · have := h.one
          grind
        · have := h.busy
          grind
        · intro m q
          have h1 := h.logged m q
          have h2 := h.inj m n id
          grind
        · intro m
          rw [successes_cons]
          have h1 := h.once m
          by_cases e : n = m
          · subst e
            rw [successes_zero]
            · split <;> omega
            · intro q hq
              obtain ⟨id', h3, h4⟩ := (h.logged n q).1 hq
              grind
          · simp [e, h1]
      · cases hs
        constructor <;> simp only [State.goto, hg]
        · intro m id'; rw [List.length_set]; exact h.key m id'
        · exact h.inj
        · intro t'
          have := h.wr t'
          have := h.wr t
          by_cases e : t' = t
          · subst e; simp only [if_true]; grind
          · simp only [if_neg e]
            grind
        · intro t'
          have := h.rd t'
          have := h.rd t
          have := h.nd
          by_cases e : t' = t
          · subst e; simp only [if_true]; grind [List.Nodup.mem_erase_iff]
          · simp only [if_neg e]
            grind [List.Nodup.mem_erase_iff]
        · exact h.excl
        · exact h.nd
        · intro t' m pc
          have := h.th t' m pc
          by_cases e : t' = t
          · subst e; simp only [if_true]; intro h'; cases h'; simp only [PcOk] at hpc ⊢; grind
          · simp only [if_neg e]
            intro h'
            have := this h'
            have ho : ∀ id', pc = .init id' → id' ≠ id := fun id' hp he => e (h.one t' t m n id (by rw [h', hp, he]) ht)
            cases pc <;> simp only [PcOk] at this ⊢ <;> grind
        · have := h.one
          grind
        · have := h.busy
          grind
        · intro m q
          have h1 := h.logged m q
          grind
        · intro m
          rw [successes_cons]
          have h1 := h.once m
          simp [h1]
    | done p => exact absurd hs (by simp)
    | unwrapPanic => exact absurd hs (by simp)
    | initPanic => exact absurd hs (by simp)

end Verif.Fft.Cache
