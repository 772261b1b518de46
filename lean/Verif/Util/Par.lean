import Mathlib.Data.List.Nodup
/-
Data-parallel loops. A rayon `par_iter_mut().zip(..).for_each(job)` runs one job per cell, in some order
that the scheduler chooses; jobs share nothing but the cell they own. The model runs them one after the
other in the order given by a schedule (a list of indices), each on the current state of the shared
array; a panic in any job is a panic of the loop.
-/
namespace Verif

variable {α : Type}

/-- One job of a parallel loop. -/
def parStep (job : Nat → α → Option α) (st : Option (List α)) (i : Nat) : Option (List α) :=
  match st with
  | none => none
  | some cs =>
    match cs[i]? with
    | none => some cs
    | some c =>
      match job i c with
      | none => none
      | some c' => some (cs.set i c')

/-- The loop, with its jobs in the order `sched`. -/
def parFor (job : Nat → α → Option α) (sched : List Nat) (cs : List α) : Option (List α) :=
  sched.foldl (parStep job) (some cs)

theorem foldl_parStep_none (job : Nat → α → Option α) : ∀ sched : List Nat,
    sched.foldl (parStep job) none = none
  | [] => rfl
  | _ :: s => foldl_parStep_none job s

theorem parFor_spec (job : Nat → α → Option α) : ∀ (sched : List Nat), sched.Nodup → ∀ cs : List α,
    (∀ r, parFor job sched cs = some r → r.length = cs.length ∧ ∀ i c, cs[i]? = some c →
      (i ∈ sched → ∃ c', job i c = some c' ∧ r[i]? = some c') ∧ (i ∉ sched → r[i]? = some c)) ∧
    (parFor job sched cs = none → ∃ i ∈ sched, ∃ c, cs[i]? = some c ∧ job i c = none)
  | [], _, cs => by
    constructor
    · intro r h
      simp only [parFor, List.foldl_nil, Option.some.injEq] at h
      subst h
      exact ⟨rfl, fun i c hc => ⟨fun h => by simp at h, fun _ => hc⟩⟩
    · intro h; simp [parFor] at h
  | j :: s, hn, cs => by
    obtain ⟨hj, hs⟩ := List.nodup_cons.1 hn
    have unf : parFor job (j :: s) cs = s.foldl (parStep job) (parStep job (some cs) j) := rfl
    rw [unf]
    cases hcj : cs[j]? with
    | none =>
      simp only [parStep, hcj]
      obtain ⟨h1, h2⟩ := parFor_spec job s hs cs
      constructor
      · intro r h
        obtain ⟨hl, hr⟩ := h1 r h
        refine ⟨hl, fun i c hc => ⟨fun hi => ?_, fun hi => (hr i c hc).2 (fun h => hi (by simp [h]))⟩⟩
        rcases List.mem_cons.1 hi with rfl | hi
        · rw [hcj] at hc; cases hc
        · exact (hr i c hc).1 hi
      · intro h
        obtain ⟨i, hi, c, hc, hjob⟩ := h2 h
        exact ⟨i, by simp [hi], c, hc, hjob⟩
    | some cj =>
      cases hjob : job j cj with
      | none =>
        simp only [parStep, hcj, hjob]
        rw [foldl_parStep_none]
        exact ⟨(fun _ h => by cases h), fun _ => ⟨j, by simp, cj, hcj, hjob⟩⟩
      | some c' =>
        simp only [parStep, hcj, hjob]
        obtain ⟨h1, h2⟩ := parFor_spec job s hs (cs.set j c')
        have hset : ∀ i, i ≠ j → (cs.set j c')[i]? = cs[i]? := fun i hi =>
          List.getElem?_set_ne (Ne.symm hi)
        have hjl : j < cs.length := (List.getElem?_eq_some_iff.1 hcj).1
        constructor
        · intro r h
          obtain ⟨hl, hr⟩ := h1 r h
          refine ⟨by simpa using hl, fun i c hc => ?_⟩
          by_cases hij : i = j
          · subst hij
            rw [hcj] at hc
            cases hc
            refine ⟨fun _ => ⟨c', hjob, ?_⟩, fun h => absurd (List.mem_cons_self) h⟩
            have := (hr i c' (by simp [hjl])).2 hj
            exact this
          · have := hr i c (by rw [hset i hij]; exact hc)
            refine ⟨fun hi => ?_, fun hi => this.2 (fun h => hi (by simp [h]))⟩
            rcases List.mem_cons.1 hi with h | hi
            · exact absurd h hij
            · exact this.1 hi
        · intro h
          obtain ⟨i, hi, c, hc, hjob'⟩ := h2 h
          have hij : i ≠ j := fun e => hj (e ▸ hi)
          rw [hset i hij] at hc
          exact ⟨i, by simp [hi], c, hc, hjob'⟩

/-- The result of a parallel loop does not depend on the schedule. -/
theorem parFor_perm (job : Nat → α → Option α) (s1 s2 : List Nat) (h1 : s1.Nodup) (hp : s1.Perm s2)
    (cs : List α) : parFor job s1 cs = parFor job s2 cs := by
  have h2 : s2.Nodup := hp.nodup_iff.1 h1
  obtain ⟨a1, b1⟩ := parFor_spec job s1 h1 cs
  obtain ⟨a2, b2⟩ := parFor_spec job s2 h2 cs
  have none_of : ∀ (s s' : List Nat), s.Nodup → s'.Nodup → s.Perm s' →
      parFor job s cs = none → parFor job s' cs = none := by
    intro s s' hs hs' hp' h
    obtain ⟨i, hi, c, hc, hj⟩ := (parFor_spec job s hs cs).2 h
    cases h' : parFor job s' cs with
    | none => rfl
    | some r =>
      obtain ⟨c', e, _⟩ := (((parFor_spec job s' hs' cs).1 r h').2 i c hc).1 (hp'.mem_iff.1 hi)
      rw [hj] at e; cases e
  cases e1 : parFor job s1 cs with
  | none => exact (none_of s1 s2 h1 h2 hp e1).symm
  | some r1 =>
    cases e2 : parFor job s2 cs with
    | none => rw [none_of s2 s1 h2 h1 hp.symm e2] at e1; cases e1
    | some r2 =>
      obtain ⟨l1, g1⟩ := a1 r1 e1
      obtain ⟨l2, g2⟩ := a2 r2 e2
      congr 1
      apply List.ext_getElem?
      intro i
      cases hc : cs[i]? with
      | none =>
        have := List.getElem?_eq_none_iff.1 hc
        rw [List.getElem?_eq_none (by omega), List.getElem?_eq_none (by omega)]
      | some c =>
        by_cases hi : i ∈ s1
        · obtain ⟨x, ex, hx⟩ := (g1 i c hc).1 hi
          obtain ⟨y, ey, hy⟩ := (g2 i c hc).1 (hp.mem_iff.1 hi)
          rw [ex] at ey
          cases ey
          rw [hx, hy]
        · rw [(g1 i c hc).2 hi, (g2 i c hc).2 (fun h => hi (hp.mem_iff.2 h))]

/-- A complete schedule runs every job on the initial content of its cell. -/
theorem parFor_complete (job : Nat → α → Option α) (s : List Nat) (cs : List α)
    (hp : s.Perm (List.range cs.length)) :
    (∀ r, parFor job s cs = some r ↔ r.length = cs.length ∧
      ∀ i c, cs[i]? = some c → ∃ c', job i c = some c' ∧ r[i]? = some c') ∧
    (parFor job s cs = none ↔ ∃ i c, cs[i]? = some c ∧ job i c = none) := by
  have hn : s.Nodup := hp.nodup_iff.2 List.nodup_range
  have hmem : ∀ i c, cs[i]? = some c → i ∈ s := fun i c hc =>
    hp.mem_iff.2 (List.mem_range.2 (List.getElem?_eq_some_iff.1 hc).1)
  obtain ⟨a, b⟩ := parFor_spec job s hn cs
  have none_iff : parFor job s cs = none ↔ ∃ i c, cs[i]? = some c ∧ job i c = none := by
    constructor
    · intro h
      obtain ⟨i, _, c, hc, hj⟩ := b h
      exact ⟨i, c, hc, hj⟩
    · rintro ⟨i, c, hc, hj⟩
      cases h : parFor job s cs with
      | none => rfl
      | some r =>
        obtain ⟨c', e, _⟩ := ((a r h).2 i c hc).1 (hmem i c hc)
        rw [hj] at e; cases e
  refine ⟨fun r => ⟨fun h => ⟨(a r h).1, fun i c hc => ((a r h).2 i c hc).1 (hmem i c hc)⟩, ?_⟩,
    none_iff⟩
  rintro ⟨hl, hr⟩
  cases h : parFor job s cs with
  | none =>
    obtain ⟨i, c, hc, hj⟩ := none_iff.1 h
    obtain ⟨c', e, _⟩ := hr i c hc
    rw [hj] at e; cases e
  | some r' =>
    congr 1
    apply List.ext_getElem?
    intro i
    cases hc : cs[i]? with
    | none =>
      have := List.getElem?_eq_none_iff.1 hc
      rw [List.getElem?_eq_none (by rw [(a r' h).1]; omega), List.getElem?_eq_none (by omega)]
    | some c =>
      obtain ⟨x, ex, hx⟩ := ((a r' h).2 i c hc).1 (hmem i c hc)
      obtain ⟨y, ey, hy⟩ := hr i c hc
      rw [ex] at ey
      cases ey
      rw [hx, hy]

end Verif
