import Verif.Fft.Parallel
import Verif.Pbs.Props2
import Mathlib.Algebra.BigOperators.Group.List.Basic
/-
Invariant of the parallel bootstrap.
-/
namespace Verif.Fft.Parallel
open Verif.Engine Verif.Pbs

variable {w : Nat}

/-- What holds after any number of steps: `R i` is the result of item `i`, `out0` the output at the start. -/
structure Inv (c : Call w) (n : Nat) (out0 : List (BitVec w)) (R : Nat → List (BitVec w)) (s : State w) : Prop where
  len : s.out.length = out0.length
  ok : s.panicked = false
  nodup : s.todo.Nodup
  lt : ∀ i ∈ s.todo, i < n
  busyLt : ∀ (t i pos : Nat) (r : List (BitVec w)), s.workers[t]? = some (Worker.busy i pos r) →
    i < n ∧ i ∉ s.todo ∧ r = R i ∧ ∀ j, j < pos → j < c.outSize → s.out[i * c.outSize + j]? = (R i)[j]?
  uniq : ∀ (t t' i pos pos' : Nat) (r r' : List (BitVec w)), s.workers[t]? = some (Worker.busy i pos r) →
    s.workers[t']? = some (Worker.busy i pos' r') → t = t'
  todo : ∀ i ∈ s.todo, ∀ j, j < c.outSize → s.out[i * c.outSize + j]? = out0[i * c.outSize + j]?
  done : ∀ i, i < n → i ∉ s.todo → (∀ (t pos : Nat) (r : List (BitVec w)), s.workers[t]? ≠ some (Worker.busy i pos r)) →
    ∀ j, j < c.outSize → s.out[i * c.outSize + j]? = (R i)[j]?
  rest : ∀ q, n * c.outSize ≤ q → s.out[q]? = out0[q]?

theorem pos_inj {S i j i' j' : Nat} (hj : j < S) (hj' : j' < S) (h : i * S + j = i' * S + j') : i = i' ∧ j = j' := by
  have h1 : (i * S + j) / S = i := by
    rw [Nat.mul_comm, Nat.mul_add_div (by omega), Nat.div_eq_of_lt hj, Nat.add_zero]
  have h2 : (i' * S + j') / S = i' := by
    rw [Nat.mul_comm, Nat.mul_add_div (by omega), Nat.div_eq_of_lt hj', Nat.add_zero]
  have h3 : i = i' := by rw [← h1, h, h2]
  subst h3
  exact ⟨rfl, by omega⟩

theorem block_eq_of {S i : Nat} {a b : List (BitVec w)} (h : ∀ j, j < S → a[i * S + j]? = b[i * S + j]?) :
    block S a i = block S b i := by
  apply List.ext_getElem?
  intro j
  by_cases hj : j < S
  · rw [block_getElem? S a i j hj, block_getElem? S b i j hj, h j hj]
  · rw [List.getElem?_eq_none (by simp only [block, List.length_take]; omega),
      List.getElem?_eq_none (by simp only [block, List.length_take]; omega)]

theorem inv_start (c : Call w) (out0 : List (BitVec w)) (R : Nat → List (BitVec w)) (threads n : Nat)
    (hn : min (min c.inCount (out0.length / c.outSize)) c.accCount = n) : Inv c n out0 R (c.start out0 threads) := by
  have hw : ∀ (t i pos : Nat) (r : List (BitVec w)), (List.replicate threads (Worker.idle (w := w)))[t]? ≠ some (Worker.busy i pos r) := by
    intro t i pos r h
    rw [List.getElem?_replicate] at h
    split at h <;> cases h
  refine ⟨rfl, rfl, List.nodup_range, fun i hi => ?_, fun t i pos r h => absurd h (hw t i pos r),
    fun t _ i pos _ r _ h => absurd h (hw t i pos r), fun _ _ _ _ => rfl, fun i hi h => ?_, fun _ _ => rfl⟩
  · rw [← hn]; exact List.mem_range.1 hi
  · exact absurd (List.mem_range.2 (by rw [hn]; exact hi)) h

theorem inv_step {c : Call w} {n : Nat} {out0 : List (BitVec w)} {R : Nat → List (BitVec w)}
    (hR : ∀ i, i < n → c.item i (block c.outSize out0 i) = some (R i) ∧ (R i).length = c.outSize)
    (hn : n * c.outSize ≤ out0.length) {s s' : State w} (hI : Inv c n out0 R s) (h : Step c s s') : Inv c n out0 R s' := by
  have hitem : ∀ i ∈ s.todo, c.item i (block c.outSize s.out i) = some (R i) := by
    intro i hi
    rw [block_eq_of (hI.todo i hi)]
    exact (hR i (hI.lt i hi)).1
  cases h with
  | take t i r ht hi h =>
    have hr : r = R i := by rw [hitem i hi] at h; exact (Option.some.inj h).symm
    have htl : t < s.workers.length := by
      by_contra hc
      rw [List.getElem?_eq_none (by omega)] at ht; cases ht
    have hget : ∀ t', (s.workers.set t (Worker.busy i 0 r))[t']? =
        if t' = t then some (Worker.busy i 0 r) else s.workers[t']? := by
      intro t'
      rw [List.getElem?_set]
      by_cases h' : t = t'
      · subst h'; simp [htl]
      · simp [h', Ne.symm h']
    refine ⟨hI.len, hI.ok, hI.nodup.erase i, fun j hj => hI.lt j (List.mem_of_mem_erase hj), ?_, ?_,
      fun j hj => hI.todo j (List.mem_of_mem_erase hj), ?_, hI.rest⟩
    · intro t' i' pos r' h'
      dsimp only at h'
      rw [hget] at h'
      split at h'
      · cases h'
        exact ⟨hI.lt i hi, fun hc => ((hI.nodup.mem_erase_iff).1 hc).1 rfl, hr, fun j hj => absurd hj (Nat.not_lt_zero j)⟩
      · obtain ⟨a, b, d, e⟩ := hI.busyLt t' i' pos r' h'
        exact ⟨a, fun hc => b (List.mem_of_mem_erase hc), d, e⟩
    · intro t1 t2 i' p1 p2 r1 r2 h1 h2
      dsimp only at h1 h2
      rw [hget] at h1 h2
      split at h1
      · rename_i e1
        split at h2
        · rename_i e2; rw [e1, e2]
        · cases h1
          exact absurd hi (hI.busyLt t2 i p2 r2 h2).2.1
      · split at h2
        · cases h2
          exact absurd hi (hI.busyLt t1 i p1 r1 h1).2.1
        · exact hI.uniq t1 t2 i' p1 p2 r1 r2 h1 h2
    · intro i' hi' hnt hnw
      dsimp only at hnt hnw
      have hne : i' ≠ i := by
        rintro rfl
        have := hnw t 0 r
        rw [hget, if_pos rfl] at this
        exact this rfl
      refine hI.done i' hi' (fun hc => hnt ((List.mem_erase_of_ne hne).2 hc)) fun t' pos r' h' => ?_
      have := hnw t' pos r'
      rw [hget] at this
      split at this
      · rename_i e; rw [e, ht] at h'; cases h'
      · exact this h'
  | fail t i ht hi h => rw [hitem i hi] at h; cases h
  | write t i pos r x ht hx =>
    obtain ⟨hin, hit, hr, hw⟩ := hI.busyLt t i pos r ht
    subst hr
    have hpos : pos < c.outSize := by
      by_contra hc
      rw [List.getElem?_eq_none (by rw [(hR i hin).2]; omega)] at hx; cases hx
    have htl : t < s.workers.length := by
      by_contra hc
      rw [List.getElem?_eq_none (by omega)] at ht; cases ht
    have hget : ∀ t', (s.workers.set t (Worker.busy i (pos + 1) (R i)))[t']? =
        if t' = t then some (Worker.busy i (pos + 1) (R i)) else s.workers[t']? := by
      intro t'
      rw [List.getElem?_set]
      by_cases h' : t = t'
      · subst h'; simp [htl]
      · simp [h', Ne.symm h']
    have hq : i * c.outSize + pos < s.out.length := by
      rw [hI.len]
      have : (i + 1) * c.outSize ≤ n * c.outSize := Nat.mul_le_mul_right _ hin
      rw [Nat.add_mul, Nat.one_mul] at this
      omega
    have hout : ∀ q, (s.out.set (i * c.outSize + pos) x)[q]? =
        if q = i * c.outSize + pos then some x else s.out[q]? := by
      intro q
      rw [List.getElem?_set]
      by_cases h' : i * c.outSize + pos = q
      · subst h'; simp [hq]
      · simp [h', Ne.symm h']
    have hother : ∀ i' j, i' ≠ i → j < c.outSize →
        (s.out.set (i * c.outSize + pos) x)[i' * c.outSize + j]? = s.out[i' * c.outSize + j]? := by
      intro i' j hne hj
      rw [hout, if_neg (fun h => hne (pos_inj hj hpos h).1)]
    refine ⟨by rw [List.length_set]; exact hI.len, hI.ok, hI.nodup, hI.lt, ?_, ?_, ?_, ?_, ?_⟩
    · intro t' i' pos' r' h'
      dsimp only at h' ⊢
      rw [hget] at h'
      split at h'
      · cases h'
        refine ⟨hin, hit, rfl, fun j hj hj' => ?_⟩
        rw [hout]
        split
        · rename_i e
          rw [(pos_inj hj' hpos e).2, hx]
        · rename_i e
          have : j ≠ pos := fun h => e (by rw [h])
          exact hw j (by omega) hj'
      · rename_i htt
        obtain ⟨a, b, d, e⟩ := hI.busyLt t' i' pos' r' h'
        have hne : i' ≠ i := by
          rintro rfl
          exact htt (hI.uniq t' t i' pos' pos r' (R i') h' ht)
        exact ⟨a, b, d, fun j hj hj' => by rw [hother i' j hne hj']; exact e j hj hj'⟩
    · intro t1 t2 i' p1 p2 r1 r2 h1 h2
      dsimp only at h1 h2
      rw [hget] at h1 h2
      split at h1
      · rename_i e1
        split at h2
        · rename_i e2; rw [e1, e2]
        · cases h1
          rw [e1]
          exact hI.uniq t t2 i pos p2 (R i) r2 ht h2
      · split at h2
        · rename_i e2
          cases h2
          rw [e2]
          exact hI.uniq t1 t i p1 pos r1 (R i) h1 ht
        · exact hI.uniq t1 t2 i' p1 p2 r1 r2 h1 h2
    · intro i' hi' j hj
      dsimp only at hi' ⊢
      rw [hother i' j (fun h => hit (h ▸ hi')) hj]
      exact hI.todo i' hi' j hj
    · intro i' hi' hnt hnw j hj
      dsimp only at hnt hnw ⊢
      have hne : i' ≠ i := by
        rintro rfl
        have := hnw t (pos + 1) (R i')
        rw [hget, if_pos rfl] at this
        exact this rfl
      rw [hother i' j hne hj]
      refine hI.done i' hi' hnt (fun t' pos' r' h' => ?_) j hj
      have := hnw t' pos' r'
      rw [hget] at this
      split at this
      · rename_i e
        rw [e, ht] at h'
        cases h'
        exact hne rfl
      · exact this h'
    · intro q hq'
      dsimp only
      rw [hout, if_neg]
      · exact hI.rest q hq'
      · have : (i + 1) * c.outSize ≤ n * c.outSize := Nat.mul_le_mul_right _ hin
        rw [Nat.add_mul, Nat.one_mul] at this
        omega
  | finish t i pos r ht hp =>
    obtain ⟨hin, hit, hr, hw⟩ := hI.busyLt t i pos r ht
    subst hr
    rw [(hR i hin).2] at hp
    have htl : t < s.workers.length := by
      by_contra hc
      rw [List.getElem?_eq_none (by omega)] at ht; cases ht
    have hget : ∀ t', (s.workers.set t Worker.idle)[t']? =
        if t' = t then some Worker.idle else s.workers[t']? := by
      intro t'
      rw [List.getElem?_set]
      by_cases h' : t = t'
      · subst h'; simp [htl]
      · simp [h', Ne.symm h']
    refine ⟨hI.len, hI.ok, hI.nodup, hI.lt, ?_, ?_, hI.todo, ?_, hI.rest⟩
    · intro t' i' pos' r' h'
      dsimp only at h'
      rw [hget] at h'
      split at h'
      · cases h'
      · exact hI.busyLt t' i' pos' r' h'
    · intro t1 t2 i' p1 p2 r1 r2 h1 h2
      dsimp only at h1 h2
      rw [hget] at h1 h2
      split at h1
      · cases h1
      · split at h2
        · cases h2
        · exact hI.uniq t1 t2 i' p1 p2 r1 r2 h1 h2
    · intro i' hi' hnt hnw j hj
      dsimp only at hnt hnw ⊢
      by_cases hne : i' = i
      · subst hne
        exact hw j (by omega) hj
      · refine hI.done i' hi' hnt (fun t' pos' r' h' => ?_) j hj
        have := hnw t' pos' r'
        rw [hget] at this
        split at this
        · rename_i e
          rw [e, ht] at h'
          cases h'
          exact hne rfl
        · exact this h'

theorem inv_steps {c : Call w} {n : Nat} {out0 : List (BitVec w)} {R : Nat → List (BitVec w)}
    (hR : ∀ i, i < n → c.item i (block c.outSize out0 i) = some (R i) ∧ (R i).length = c.outSize)
    (hn : n * c.outSize ≤ out0.length) {m : Nat} {s s' : State w} (hI : Inv c n out0 R s) (h : Steps c m s s') :
    Inv c n out0 R s' := by
  induction h with
  | refl => exact hI
  | step _ h2 ih => exact inv_step hR hn (ih hI) h2

/-! ### Termination -/

/-- Steps that a worker still has to do. -/
def Worker.left (S : Nat) : Worker w → Nat
  | .idle => 0
  | .busy _ pos _ => S + 1 - pos

/-- Steps that are left. -/
def State.left (S : Nat) (s : State w) : Nat := s.todo.length * (S + 2) + (s.workers.map (Worker.left S)).sum

theorem sum_set (f : Worker w → Nat) (l : List (Worker w)) (t : Nat) (x y : Worker w) (h : l[t]? = some x) :
    ((l.set t y).map f).sum + f x = (l.map f).sum + f y := by
  induction l generalizing t with
  | nil => simp at h
  | cons a l ih =>
    cases t with
    | zero =>
      simp only [List.getElem?_cons_zero, Option.some.injEq] at h
      subst h
      simp only [List.set_cons_zero, List.map_cons, List.sum_cons]
      omega
    | succ t =>
      simp only [List.getElem?_cons_succ] at h
      have := ih t h
      simp only [List.set_cons_succ, List.map_cons, List.sum_cons]
      omega

theorem left_step {c : Call w} {n : Nat} {out0 : List (BitVec w)} {R : Nat → List (BitVec w)}
    (hR : ∀ i, i < n → c.item i (block c.outSize out0 i) = some (R i) ∧ (R i).length = c.outSize)
    {s s' : State w} (hI : Inv c n out0 R s) (hpos : ∀ (t i pos : Nat) (r : List (BitVec w)),
      s.workers[t]? = some (Worker.busy i pos r) → pos ≤ c.outSize) (h : Step c s s') :
    s'.left c.outSize + 1 = s.left c.outSize ∧ ∀ (t i pos : Nat) (r : List (BitVec w)),
      s'.workers[t]? = some (Worker.busy i pos r) → pos ≤ c.outSize := by
  have hset : ∀ (t : Nat) (y : Worker w), (∀ i pos r, y = Worker.busy i pos r → pos ≤ c.outSize) →
      ∀ (t' i pos : Nat) (r : List (BitVec w)), (s.workers.set t y)[t']? = some (Worker.busy i pos r) → pos ≤ c.outSize := by
    intro t y hy t' i pos r h
    rw [List.getElem?_set] at h
    split at h
    · split at h
      · exact hy i pos r (Option.some.inj h)
      · cases h
    · exact hpos t' i pos r h
  cases h with
  | take t i r ht hi h =>
    refine ⟨?_, hset t _ (fun i' pos' r' e => by cases e; omega)⟩
    have h1 := sum_set (Worker.left c.outSize) s.workers t _ (Worker.busy i 0 r) ht
    have h2 := List.length_erase_of_mem hi
    have h3 := List.length_pos_of_mem hi
    simp only [State.left, Worker.left] at *
    obtain ⟨m, hm⟩ : ∃ m, s.todo.length = m + 1 := ⟨s.todo.length - 1, by omega⟩
    rw [h2, hm, Nat.add_sub_cancel, Nat.add_mul, Nat.one_mul]
    omega
  | fail t i ht hi h =>
    rw [block_eq_of (hI.todo i hi), (hR i (hI.lt i hi)).1] at h
    cases h
  | write t i pos r x ht hx =>
    obtain ⟨hin, -, hr, -⟩ := hI.busyLt t i pos r ht
    have hp : pos < c.outSize := by
      by_contra hc
      rw [List.getElem?_eq_none (by rw [hr, (hR i hin).2]; omega)] at hx; cases hx
    refine ⟨?_, hset t _ (fun i' pos' r' e => by cases e; omega)⟩
    have h1 := sum_set (Worker.left c.outSize) s.workers t _ (Worker.busy i (pos + 1) r) ht
    simp only [State.left, Worker.left] at *
    omega
  | finish t i pos r ht hp =>
    obtain ⟨hin, -, hr, -⟩ := hI.busyLt t i pos r ht
    rw [hr, (hR i hin).2] at hp
    have hp' := hpos t i pos r ht
    refine ⟨?_, hset t _ (fun i' pos' r' e => by cases e)⟩
    have h1 := sum_set (Worker.left c.outSize) s.workers t _ Worker.idle ht
    simp only [State.left, Worker.left] at *
    omega

end Verif.Fft.Parallel
