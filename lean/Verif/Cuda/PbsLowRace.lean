import Verif.Cuda.PbsLowLemmas
/-
Lemmas for the race of the low latency bootstrap: how to reach a state in which one block is about to read a place
and another is about to write it.
-/
set_option linter.unusedSectionVars false

namespace Verif.Cuda.Grid

variable {B Loc V L : Type} [DecidableEq B] [Fintype B] [DecidableEq Loc]

/-- `j` steps of a block inside an interval. -/
theorem run_inside (prog : B → Prog Loc V L) (b : B) : ∀ (j : Nat) (s : State B Loc V L),
    j ≤ (s.blk b).rest.length →
    ((run prog (List.replicate j b) s).blk b).epoch = (s.blk b).epoch ∧
    ((run prog (List.replicate j b) s).blk b).rest = (s.blk b).rest.drop j ∧
    ∀ c, c ≠ b → (run prog (List.replicate j b) s).blk c = s.blk c := by
  intro j
  induction j with
  | zero => intro s _; exact ⟨rfl, rfl, fun _ _ => rfl⟩
  | succ j ih =>
    intro s h
    obtain ⟨i, rest, hi⟩ := List.exists_cons_of_ne_nil (List.ne_nil_of_length_pos (by omega : 0 < (s.blk b).rest.length))
    have hs : (step prog s b).blk = Function.update s.blk b ⟨(s.blk b).epoch, rest,
        (i.run (s.mem, (s.blk b).own)).2⟩ := by simp [step, hi]
    rw [hi] at h
    obtain ⟨h1, h2, h3⟩ := ih (step prog s b) (by rw [hs]; simpa using h)
    rw [List.replicate_succ, run]
    refine ⟨?_, ?_, ?_⟩
    · rw [h1, hs]; simp
    · rw [h2, hs, hi]; simp
    · intro c hc
      rw [h3 c hc, hs]; simp [Function.update_of_ne hc]

/-- A block passes the barrier where all have arrived, then does `j` instructions. -/
theorem run_pass (prog : B → Prog Loc V L) (s : State B Loc V L) (b : B) (e j : Nat) (sg : List (Instr Loc V L))
    (he : (s.blk b).epoch = e) (hr : (s.blk b).rest = []) (hs : (prog b)[e + 1]? = some sg)
    (harr : ∀ c, ((s.blk c).epoch = e ∧ (s.blk c).rest = []) ∨ (s.blk c).epoch = e + 1) (hj : j ≤ sg.length) :
    ((run prog (List.replicate (j + 1) b) s).blk b).epoch = e + 1 ∧
    ((run prog (List.replicate (j + 1) b) s).blk b).rest = sg.drop j ∧
    ∀ c, c ≠ b → (run prog (List.replicate (j + 1) b) s).blk c = s.blk c := by
  have ha : ∀ c, arrived s (s.blk b).epoch c = true := by
    intro c
    rw [arrived_iff, he]
    rcases harr c with h | h
    · exact .inr h
    · exact .inl (by omega)
  have hst : step prog s b = ⟨s.mem, Function.update s.blk b ⟨(s.blk b).epoch + 1, sg, (s.blk b).own⟩⟩ := by
    simp only [step, hr, he, hs]
    rw [if_pos (by rw [he] at ha; exact ha)]
  have hb : (step prog s b).blk b = ⟨e + 1, sg, (s.blk b).own⟩ := by rw [hst]; simp [he]
  obtain ⟨h1, h2, h3⟩ := run_inside prog b j (step prog s b) (by rw [hb]; exact hj)
  rw [List.replicate_succ, run]
  refine ⟨?_, ?_, ?_⟩
  · rw [h1, hb]
  · rw [h2, hb]
  · intro c hc
    rw [h3 c hc, hst]; simp [Function.update_of_ne hc]

/-- The blocks of a list can go to the end of the next interval. -/
theorem run_some (prog : B → Prog Loc V L) (e : Nat) (hp : ∀ b, e + 1 < (prog b).length) :
    ∀ (bs : List B) (s : State B Loc V L), bs.Nodup →
      (∀ c, ((s.blk c).epoch = e ∨ ((s.blk c).epoch = e + 1 ∧ c ∉ bs)) ∧ (s.blk c).rest = []) →
      ∃ sch, ∀ c, (((run prog sch s).blk c).epoch = e + 1 ∨ (((run prog sch s).blk c).epoch = e ∧ c ∉ bs)) ∧
        ((run prog sch s).blk c).rest = [] := by
  intro bs
  induction bs with
  | nil =>
    intro s _ h
    refine ⟨[], fun c => ⟨?_, (h c).2⟩⟩
    rcases (h c).1 with h1 | h1
    · exact .inr ⟨h1, by simp⟩
    · exact .inl h1.1
  | cons b bs ih =>
    intro s hn h
    rw [List.nodup_cons] at hn
    have hb : (s.blk b).epoch = e := by
      rcases (h b).1 with h1 | h1
      · exact h1
      · exact absurd List.mem_cons_self h1.2
    have hs : (prog b)[e + 1]? = some ((prog b)[e + 1]'(hp b)) := List.getElem?_eq_getElem _
    obtain ⟨h1, h2, h3⟩ := run_pass prog s b e _ _ hb (h b).2 hs (fun c => by
      rcases (h c).1 with h1 | h1
      · exact .inl ⟨h1, (h c).2⟩
      · exact .inr h1.1) le_rfl
    rw [List.drop_length] at h2
    set s' := run prog (List.replicate (((prog b)[e + 1]'(hp b)).length + 1) b) s with hs'
    obtain ⟨sch, hsch⟩ := ih s' hn.2 (fun c => by
      by_cases hc : c = b
      · subst hc; exact ⟨.inr ⟨h1, hn.1⟩, h2⟩
      · rw [h3 c hc]
        refine ⟨?_, (h c).2⟩
        rcases (h c).1 with h4 | h4
        · exact .inl h4
        · exact .inr ⟨h4.1, fun hm => h4.2 (List.mem_cons_of_mem _ hm)⟩)
    by_cases hbe : ((run prog sch s').blk b).epoch = e + 1
    · refine ⟨List.replicate (((prog b)[e + 1]'(hp b)).length + 1) b ++ sch, fun c => ?_⟩
      rw [run_append, ← hs']
      refine ⟨?_, (hsch c).2⟩
      rcases (hsch c).1 with h4 | h4
      · exact .inl h4
      · by_cases hc : c = b
        · subst hc; exact .inl hbe
        · exact .inr ⟨h4.1, by simp [hc, h4.2]⟩
    · exfalso
      -- the number of barriers that a block has passed does not decrease
      have mono : ∀ (sch : List B) (s : State B Loc V L), (s.blk b).epoch ≤ ((run prog sch s).blk b).epoch := by
        intro sch
        induction sch with
        | nil => intro s; exact le_rfl
        | cons a sch ih =>
          intro s
          refine le_trans ?_ (ih _)
          by_cases hab : b = a
          · subst hab
            unfold step
            split
            · simp
            · split
              · exact le_rfl
              · split
                · simp
                · exact le_rfl
          · unfold step
            split
            · simp [Function.update_of_ne hab]
            · split
              · exact le_rfl
              · split
                · simp [Function.update_of_ne hab]
                · exact le_rfl
      have := mono sch s'
      rw [h1] at this
      rcases (hsch b).1 with h4 | h4
      · exact hbe h4
      · omega

/-- All blocks can reach the end of every interval together. -/
theorem run_to (prog : B → Prog Loc V L) (m : Loc → V) (x : B → L) (e : Nat)
    (hp : ∀ b, e < (prog b).length) :
    ∃ sch, ∀ c, ((run prog sch (start prog m x)).blk c).epoch = e ∧ ((run prog sch (start prog m x)).blk c).rest = [] := by
  induction e with
  | zero =>
    -- the first interval
    have first : ∀ (bs : List B) (s : State B Loc V L), (∀ c, (s.blk c).epoch = 0) →
        (∀ c, c ∉ bs → (s.blk c).rest = []) →
        ∃ sch, ∀ c, ((run prog sch s).blk c).epoch = 0 ∧ ((run prog sch s).blk c).rest = [] := by
      intro bs
      induction bs with
      | nil => intro s h0 h1; exact ⟨[], fun c => ⟨h0 c, h1 c (by simp)⟩⟩
      | cons b bs ih =>
        intro s h0 h1
        obtain ⟨h2, h3, h4⟩ := run_inside prog b _ s le_rfl
        rw [List.drop_length] at h3
        obtain ⟨sch, hsch⟩ := ih (run prog (List.replicate (s.blk b).rest.length b) s) (fun c => by
            by_cases hc : c = b
            · subst hc; rw [h2]; exact h0 c
            · rw [h4 c hc]; exact h0 c) (fun c hc => by
            by_cases hcb : c = b
            · subst hcb; exact h3
            · rw [h4 c hcb]; exact h1 c (by simp [hcb, hc]))
        exact ⟨List.replicate (s.blk b).rest.length b ++ sch, fun c => by rw [run_append]; exact hsch c⟩
    exact first Finset.univ.toList _ (fun _ => rfl) (fun c hc => absurd (Finset.mem_toList.mpr (Finset.mem_univ c)) hc)
  | succ e ih =>
    obtain ⟨sch, h⟩ := ih (fun b => by have := hp b; omega)
    obtain ⟨sch', h'⟩ := run_some prog e hp Finset.univ.toList (run prog sch (start prog m x)) (Finset.nodup_toList _)
      (fun c => ⟨.inl (h c).1, (h c).2⟩)
    refine ⟨sch ++ sch', fun c => ?_⟩
    rw [run_append]
    rcases (h' c).1 with h1 | h1
    · exact ⟨h1, (h' c).2⟩
    · exact absurd (Finset.mem_toList.mpr (Finset.mem_univ c)) h1.2

end Verif.Cuda.Grid
