import Verif.Cuda.Keyswitch
import Verif.Cuda.KernelLemmas
/-
The invariant of the threads of a block of the keyswitch kernel.
-/
namespace Verif.Cuda

variable {w : Nat}

/-! ### The segments -/

theorem part_iff (n t k : Nat) (ht : t < ksThreads) : k < partPerThread n t ↔ t + k * ksThreads < n := by
  unfold partPerThread
  simp only [ksThreads] at *
  split
  · rw [if_neg (by omega)]; omega
  · split <;> omega

theorem mem_overPart (P : KsArgs w) (t : Nat) (ht : t < ksThreads) (f : Nat → Instr) (x : Instr) :
    x ∈ overPart P t f ↔ ∃ idx, idx ≤ P.dimOut ∧ idx % ksThreads = t ∧ x = f idx := by
  simp only [overPart, List.mem_map, List.mem_range]
  constructor
  · rintro ⟨k, hk, rfl⟩
    rw [part_iff _ _ _ ht] at hk
    refine ⟨_, by omega, ?_, rfl⟩
    simp only [ksThreads] at *; omega
  · rintro ⟨idx, h1, h2, rfl⟩
    refine ⟨idx / ksThreads, ?_, ?_⟩
    · rw [part_iff _ _ _ ht]; simp only [ksThreads] at *; omega
    · congr 1; simp only [ksThreads] at *; omega

/-- What a segment contains. -/
theorem mem_segment (P : KsArgs w) (t e : Nat) (ht : t < ksThreads) (x : Instr) (h : x ∈ segment P t e) :
    (∃ idx, x = .zero idx ∧ idx ≤ P.dimOut ∧ idx % ksThreads = t ∧ e = 0) ∨
    (x = .body ∧ t = 0 ∧ e = 0) ∨
    (∃ i j idx, x = .sub i j idx ∧ idx ≤ P.dimOut ∧ idx % ksThreads = t ∧ e = i + 1 ∧ j < P.l) ∨
    (∃ idx, x = .out idx ∧ idx ≤ P.dimOut ∧ idx % ksThreads = t ∧ e = P.dimIn) := by
  unfold segment at h
  rcases List.mem_append.1 h with h | h
  · cases e with
    | zero =>
      rcases List.mem_append.1 h with h | h
      · obtain ⟨idx, h1, h2, rfl⟩ := (mem_overPart P t ht _ _).1 h
        exact Or.inl ⟨idx, rfl, h1, h2, rfl⟩
      · by_cases h0 : t = 0
        · rw [if_pos h0] at h
          exact Or.inr (Or.inl ⟨List.mem_singleton.1 h, h0, rfl⟩)
        · rw [if_neg h0] at h; simp at h
    | succ i =>
      obtain ⟨j, hj, h⟩ := List.mem_flatMap.1 h
      obtain ⟨idx, h1, h2, rfl⟩ := (mem_overPart P t ht _ _).1 h
      exact Or.inr (Or.inr (Or.inl ⟨i, j, idx, rfl, h1, h2, rfl, List.mem_range.1 hj⟩))
  · by_cases h0 : e = P.dimIn
    · rw [if_pos h0] at h
      obtain ⟨idx, h1, h2, rfl⟩ := (mem_overPart P t ht _ _).1 h
      exact Or.inr (Or.inr (Or.inr ⟨idx, rfl, h1, h2, h0⟩))
    · rw [if_neg h0] at h; simp at h

/-- After the first output of a segment only outputs remain. -/
theorem outs_last (P : KsArgs w) (t e : Nat) (ht : t < ksThreads) (done rest : List Instr) (x : Instr)
    (idx : Nat) (h : segment P t e = done ++ x :: rest) (ho : Instr.out idx ∈ done) :
    ∃ k, x = .out k := by
  have key : ∀ A B : List Instr, (∀ y ∈ A, ∀ k, y ≠ Instr.out k) → (∀ y ∈ B, ∃ k, y = Instr.out k) →
      A ++ B = done ++ x :: rest → ∃ k, x = .out k := by
    intro A B hA hB he
    by_cases hl : A.length ≤ done.length
    · have h1 : (A ++ B)[done.length]? = some x := by
        rw [he, List.getElem?_append_right (le_refl _)]; simp
      rw [List.getElem?_append_right hl] at h1
      exact hB x (List.mem_of_getElem? h1)
    · obtain ⟨p, hp, hpe⟩ := List.getElem_of_mem ho
      have h1 : (A ++ B)[p]? = some (Instr.out idx) := by
        rw [he, List.getElem?_append_left hp, List.getElem?_eq_getElem hp, hpe]
      rw [List.getElem?_append_left (by omega)] at h1
      exact absurd rfl (hA _ (List.mem_of_getElem? h1) idx)
  unfold segment at h
  refine key _ _ ?_ ?_ h
  · intro y hy k hk
    subst hk
    cases e with
    | zero =>
      rcases List.mem_append.1 hy with h | h
      · obtain ⟨_, _, _, h⟩ := (mem_overPart P t ht _ _).1 h; cases h
      · split at h <;> simp at h
    | succ i =>
      obtain ⟨j, _, h⟩ := List.mem_flatMap.1 hy
      obtain ⟨_, _, _, h⟩ := (mem_overPart P t ht _ _).1 h; cases h
  · intro y hy
    split at hy
    · obtain ⟨k, _, _, h⟩ := (mem_overPart P t ht _ _).1 hy; exact ⟨k, h⟩
    · simp at hy

/-! ### Values -/

/-- The content of a cell of the shared memory. -/
def cell (st : Block w) (idx : Nat) : Option (BitVec w) := (st.shared[idx]?).getD none

def inWord (P : KsArgs w) (i : Nat) : Option (BitVec w) :=
  (P.input[P.blk * (P.dimIn + 1) + i]?).getD none

def kskWord (P : KsArgs w) (k : Nat) : Option (BitVec w) := (P.ksk[k]?).getD none

/-- The effect of an access on a cell. -/
def cellEff (P : KsArgs w) (idx : Nat) (c : Option (BitVec w)) : Instr → Option (BitVec w)
  | .zero k => if k = idx then some 0#w else c
  | .body => if P.dimOut = idx then inWord P P.dimIn else c
  | .sub i j k =>
    if k = idx then c.bind fun v => (kskWord P (kskIndex P i j k)).bind fun q =>
      (inWord P i).map fun a => v - q * gpuDigit P.b P.l a j
    else c
  | .out _ => c

/-- What a thread has done. -/
def hist (P : KsArgs w) (t : Nat) (th : Thread w) : List Instr :=
  (List.range th.epoch).flatMap (segment P t) ++
    (segment P t th.epoch).take ((segment P t th.epoch).length - th.todo.length)

theorem hist_loaded (P : KsArgs w) (t e : Nat) (todo : List Instr) (r r' : Option (Option (BitVec w))) :
    hist P t ⟨e, todo, r⟩ = hist P t ⟨e, todo, r'⟩ := rfl

theorem hist_exec (P : KsArgs w) (t e : Nat) (x : Instr) (rest : List Instr)
    (r r' : Option (Option (BitVec w))) (h : (x :: rest) <:+ segment P t e) :
    hist P t ⟨e, rest, r'⟩ = hist P t ⟨e, x :: rest, r⟩ ++ [x] := by
  obtain ⟨done, hd⟩ := h
  unfold hist
  simp only
  rw [← hd]
  simp only [List.length_append, List.length_cons, List.append_assoc]
  congr 1
  rw [show done.length + (rest.length + 1) - rest.length = done.length + 1 by omega,
    show done.length + (rest.length + 1) - (rest.length + 1) = done.length by omega,
    List.take_length_add_append, List.take_left']
  · simp
  · rfl

theorem hist_barrier (P : KsArgs w) (t e : Nat) (r r' : Option (Option (BitVec w))) :
    hist P t ⟨e + 1, segment P t (e + 1), r'⟩ = hist P t ⟨e, [], r⟩ := by
  unfold hist
  simp [List.range_succ]

theorem hist_start (P : KsArgs w) (t : Nat) (r : Option (Option (BitVec w))) :
    hist P t ⟨0, segment P t 0, r⟩ = [] := by
  unfold hist
  simp

theorem mem_hist (P : KsArgs w) (t : Nat) (th : Thread w) (x : Instr) (h : x ∈ hist P t th) :
    ∃ e, e ≤ th.epoch ∧ x ∈ segment P t e := by
  unfold hist at h
  rcases List.mem_append.1 h with h | h
  · obtain ⟨e, he, h⟩ := List.mem_flatMap.1 h
    exact ⟨e, (List.mem_range.1 he).le, h⟩
  · exact ⟨_, le_refl _, List.mem_of_mem_take h⟩

/-- The access of another thread does not change a cell, except for the body. -/
theorem eff_other (P : KsArgs w) (t e idx : Nat) (ht : t < ksThreads) (x : Instr) (hx : x ∈ segment P t e)
    (h : idx % ksThreads ≠ t) (hb : x = .body → P.dimOut ≠ idx) (c : Option (BitVec w)) :
    cellEff P idx c x = c := by
  rcases mem_segment P t e ht x hx with ⟨k, rfl, _, h2, _⟩ | ⟨rfl, _, _⟩ | ⟨i, j, k, rfl, _, h2, _, _⟩ |
    ⟨k, rfl, _, _, _⟩
  · exact if_neg (by rintro rfl; exact h h2)
  · exact if_neg (hb rfl)
  · exact if_neg (by rintro rfl; exact h h2)
  · rfl

/-! ### The invariant -/

structure Inv (P : KsArgs w) (st : Block w) : Prop where
  threads : st.threads.length = ksThreads
  shared : st.shared.length = P.dimOut + 1
  out : st.out.length = P.dimOut + 1
  suffix : ∀ (t : Nat) (th : Thread w), st.threads[t]? = some th → th.epoch ≤ P.dimIn ∧ th.todo <:+ segment P t th.epoch
  loaded : ∀ (t : Nat) (th : Thread w) v, st.threads[t]? = some th → th.loaded = some v →
    ∃ i j idx rest, th.todo = .sub i j idx :: rest ∧ cell st idx = v
  barrier : ∀ (t u : Nat) (th uh : Thread w), st.threads[t]? = some th → st.threads[u]? = some uh → uh.epoch < th.epoch →
    uh.todo = [] ∧ uh.epoch + 1 = th.epoch
  cells : ∀ idx, idx ≤ P.dimOut → (idx ≠ P.dimOut ∨ P.dimOut % ksThreads = 0) →
    ∀ (th : Thread w), st.threads[idx % ksThreads]? = some th →
      cell st idx = (hist P (idx % ksThreads) th).foldl (cellEff P idx) none
  outs : ∀ idx, idx ≤ P.dimOut → ∀ (th : Thread w), st.threads[idx % ksThreads]? = some th →
    Instr.out idx ∈ hist P (idx % ksThreads) th → st.out[idx]? = some (cell st idx)

/-- The cell of the body while thread 0 has not written it. -/
def Before (P : KsArgs w) (st : Block w) : Prop :=
  ∀ (th th0 : Thread w), st.threads[P.dimOut % ksThreads]? = some th → st.threads[0]? = some th0 →
    Instr.body ∉ hist P 0 th0 ∧
      cell st P.dimOut = (hist P (P.dimOut % ksThreads) th).foldl (cellEff P P.dimOut) none

/-- The cell of the body once thread 0 has written it, when its owner had done `h1`. -/
def After (P : KsArgs w) (h1 : List Instr) (st : Block w) : Prop :=
  ∀ (th th0 : Thread w), st.threads[P.dimOut % ksThreads]? = some th → st.threads[0]? = some th0 →
    Instr.body ∈ hist P 0 th0 ∧ ∃ h2, hist P (P.dimOut % ksThreads) th = h1 ++ h2 ∧
      cell st P.dimOut = (h1 ++ .body :: h2).foldl (cellEff P P.dimOut) none

/-- The arguments point to enough memory. -/
structure KsFits (P : KsArgs w) : Prop where
  dim : 0 < P.dimIn
  input : (P.blk + 1) * (P.dimIn + 1) ≤ P.input.length
  ksk : P.dimIn * P.l * (P.dimOut + 1) ≤ P.ksk.length

theorem read_getD {α : Type} (v : DVec α) (i : Nat) (h : i < v.length) :
    DVec.read v i = .ok ((v[i]?).getD none) := by
  unfold DVec.read
  rw [List.getElem?_eq_getElem h]
  rfl

theorem kskIndex_lt (P : KsArgs w) (i j idx : Nat) (hi : i < P.dimIn) (hj : j < P.l) (h : idx ≤ P.dimOut) :
    kskIndex P i j idx < P.dimIn * P.l * (P.dimOut + 1) := by
  unfold kskIndex
  rw [← Nat.add_mul]
  have h1 : (i + 1) * P.l ≤ P.dimIn * P.l := Nat.mul_le_mul_right _ hi
  rw [Nat.add_mul, Nat.one_mul] at h1
  have h2 : (i * P.l + (P.l - j - 1) + 1) * (P.dimOut + 1) ≤ P.dimIn * P.l * (P.dimOut + 1) :=
    Nat.mul_le_mul_right _ (by omega)
  rw [Nat.add_mul _ 1, Nat.one_mul] at h2
  omega

/-- The ways a thread moves. -/
inductive Move (P : KsArgs w) (st : Block w) (t : Nat) : Block w → Prop where
  | stay : Move P st t st
  | load (th : Thread w) (i j idx : Nat) (rest : List Instr) (h : st.threads[t]? = some th)
      (ht : th.todo = .sub i j idx :: rest) (hl : th.loaded = none) :
      Move P st t { st with threads := st.threads.set t ⟨th.epoch, th.todo, some (cell st idx)⟩ }
  | sync (th : Thread w) (h : st.threads[t]? = some th) (ht : th.todo = []) (he : th.epoch < P.dimIn)
      (ha : arrived st th.epoch = true) :
      Move P st t { st with threads := st.threads.set t ⟨th.epoch + 1, segment P t (th.epoch + 1), none⟩ }
  | exec (th : Thread w) (x : Instr) (rest : List Instr) (st' : Block w) (h : st.threads[t]? = some th)
      (ht : th.todo = x :: rest) (h1 : st'.threads = st.threads.set t ⟨th.epoch, rest, none⟩)
      (h2 : st'.shared.length = st.shared.length)
      (h3 : ∀ idx, idx ≤ P.dimOut → cell st' idx = cellEff P idx (cell st idx) x)
      (h4 : st'.out.length = st.out.length)
      (h5 : ∀ idx, idx ≤ P.dimOut → st'.out[idx]? = if x = .out idx then some (cell st idx) else st.out[idx]?) :
      Move P st t st'

theorem cell_set (s : DVec (BitVec w)) (k idx : Nat) (v : Option (BitVec w)) (hk : k < s.length) :
    ((s.set k v)[idx]?).getD none = if k = idx then v else (s[idx]?).getD none := by
  rw [List.getElem?_set]
  by_cases h : k = idx
  · subst h; simp [hk]
  · simp [h]

/-- Every step is a move, without access out of the memory. -/
theorem step_move (P : KsArgs w) (hf : KsFits P) (st : Block w) (hi : Inv P st) (t : Nat) :
    ∃ st', step P st t = .ok st' ∧ Move P st t st' := by
  unfold step
  cases hth : st.threads[t]? with
  | none => exact ⟨st, rfl, .stay⟩
  | some th =>
    simp only
    obtain ⟨he, hs⟩ := hi.suffix t th hth
    have ht : t < ksThreads := by
      rw [← hi.threads]; exact (List.getElem?_eq_some_iff.1 hth).1
    cases htd : th.todo with
    | nil =>
      simp only
      split
      · next h => exact ⟨_, rfl, .sync th hth htd h.1 h.2⟩
      · exact ⟨st, rfl, .stay⟩
    | cons x rest =>
      have hx : x ∈ segment P t th.epoch := by
        rw [htd] at hs
        exact hs.subset (List.mem_cons_self)
      have hin : ∀ i, i ≤ P.dimIn → P.blk * (P.dimIn + 1) + i < P.input.length := by
        intro i hi'
        have := hf.input
        rw [Nat.add_mul, Nat.one_mul] at this
        omega
      have hno : ∀ (x : Instr) (idx : Nat), (∀ k, x ≠ .out k) →
          st.out[idx]? = if x = .out idx then some (cell st idx) else st.out[idx]? := by
        intro x idx h; rw [if_neg (h idx)]
      rcases mem_segment P t _ ht x hx with ⟨k, rfl, h1, h2, h3⟩ | ⟨rfl, h1, h2⟩ |
        ⟨i, j, k, rfl, h1, h2, h3, h4⟩ | ⟨k, rfl, h1, h2, h3⟩
      · have hk : k < st.shared.length := by rw [hi.shared]; omega
        simp only [DVec.write, if_pos hk, Out.bind_ok]
        refine ⟨_, rfl, .exec th _ rest _ hth htd rfl (by simp) ?_ rfl
          (fun idx _ => hno _ _ (by intro k h; cases h))⟩
        intro idx _
        exact cell_set _ _ _ _ hk
      · have hk : P.dimOut < st.shared.length := by rw [hi.shared]; omega
        simp only [read_getD _ _ (hin P.dimIn (le_refl _)), DVec.write, if_pos hk, Out.bind_ok]
        refine ⟨_, rfl, .exec th _ rest _ hth htd rfl (by simp) ?_ rfl
          (fun idx _ => hno _ _ (by intro k h; cases h))⟩
        intro idx _
        exact cell_set _ _ _ _ hk
      · have hk : k < st.shared.length := by rw [hi.shared]; omega
        cases hl : th.loaded with
        | none =>
          simp only [read_getD _ _ hk, Out.bind_ok]
          refine ⟨_, rfl, ?_⟩
          have := Move.load (P := P) (st := st) (t := t) th i j k rest hth htd hl
          rw [htd] at this
          exact this
        | some v =>
          obtain ⟨i', j', k', rest', e1, e2⟩ := hi.loaded t th v hth hl
          rw [htd] at e1
          injection e1 with e1 _
          injection e1 with _ _ ek
          subst ek
          have hq := lt_of_lt_of_le (kskIndex_lt P i j k (by omega) h4 h1) hf.ksk
          simp only [read_getD _ _ (hin i (by omega)), read_getD _ _ hq, DVec.write, if_pos hk, Out.bind_ok]
          refine ⟨_, rfl, .exec th _ rest _ hth htd rfl (by simp) ?_ rfl
            (fun idx _ => hno _ _ (by intro k h; cases h))⟩
          intro idx _
          refine (cell_set _ _ _ _ hk).trans ?_
          simp only [cellEff]
          by_cases hki : k = idx
          · rw [if_pos hki, if_pos hki, ← hki, e2]; rfl
          · rw [if_neg hki, if_neg hki]; rfl
      · have hk : k < st.shared.length := by rw [hi.shared]; omega
        have hk' : k < st.out.length := by rw [hi.out]; omega
        simp only [read_getD _ _ hk, DVec.write, if_pos hk', Out.bind_ok]
        refine ⟨_, rfl, .exec th _ rest _ hth htd rfl rfl (fun idx _ => rfl) (by simp) ?_⟩
        intro idx _
        show (st.out.set k _)[idx]? = _
        rw [List.getElem?_set]
        by_cases hki : k = idx
        · subst hki; rw [if_pos rfl, if_pos hk', if_pos rfl]; rfl
        · rw [if_neg hki, if_neg (by intro h; injection h with h; exact hki h)]

theorem getElem?_set' {α : Type} {l : List α} {t u : Nat} {a b : α} {x : α} (ht : l[t]? = some x)
    (h : (l.set t a)[u]? = some b) : (u = t ∧ b = a) ∨ (u ≠ t ∧ l[u]? = some b) := by
  rw [List.getElem?_set] at h
  have hlt := (List.getElem?_eq_some_iff.1 ht).1
  by_cases hu : t = u
  · subst hu
    rw [if_pos rfl, if_pos hlt] at h
    exact Or.inl ⟨rfl, (Option.some.inj h).symm⟩
  · rw [if_neg hu] at h
    exact Or.inr ⟨fun e => hu e.symm, h⟩

theorem arrived_iff (st : Block w) (e : Nat) : arrived st e = true ↔
    ∀ (u : Nat) (uh : Thread w), st.threads[u]? = some uh → e < uh.epoch ∨ (uh.epoch = e ∧ uh.todo = []) := by
  simp only [arrived, List.all_eq_true, Bool.or_eq_true, Bool.and_eq_true, decide_eq_true_eq,
    List.isEmpty_iff]
  constructor
  · intro h u uh hu; exact h uh (List.mem_of_getElem? hu)
  · intro h x hx
    obtain ⟨u, hu⟩ := List.getElem?_of_mem hx
    exact h u x hu

/-- While thread 0 still has to write the body, no thread has passed the first barrier. -/
theorem body_epoch (P : KsArgs w) (st : Block w) (hi : Inv P st) (th0 : Thread w) (rest : List Instr)
    (h0 : st.threads[0]? = some th0) (ht : th0.todo = .body :: rest) :
    th0.epoch = 0 ∧ ∀ (u : Nat) (uh : Thread w), st.threads[u]? = some uh → uh.epoch = 0 := by
  obtain ⟨_, hs⟩ := hi.suffix 0 th0 h0
  have hx : Instr.body ∈ segment P 0 th0.epoch := by
    rw [ht] at hs; exact hs.subset List.mem_cons_self
  have he : th0.epoch = 0 := by
    rcases mem_segment P 0 _ (by norm_num) _ hx with ⟨k, h, _⟩ | ⟨_, _, h⟩ | ⟨i, j, k, h, _⟩ | ⟨k, h, _⟩
    · cases h
    · exact h
    · cases h
    · cases h
  refine ⟨he, fun u uh hu => ?_⟩
  by_contra hne
  have := (hi.barrier u 0 uh th0 hu h0 (by omega)).1
  rw [ht] at this
  cases this

theorem move_inv (P : KsArgs w) (hf : KsFits P) (st st' : Block w) (t : Nat) (hi : Inv P st)
    (hm : Move P st t st') : Inv P st' := by
  cases hm with
  | stay => exact hi
  | load th i j idx rest h ht hl =>
    have look : ∀ (u : Nat) (uh : Thread w), (st.threads.set t ⟨th.epoch, th.todo, some (cell st idx)⟩)[u]? = some uh →
        ∃ uh', st.threads[u]? = some uh' ∧ uh'.epoch = uh.epoch ∧ uh'.todo = uh.todo ∧
          hist P u uh' = hist P u uh := by
      intro u uh hu
      rcases getElem?_set' h hu with ⟨rfl, rfl⟩ | ⟨_, hu⟩
      · exact ⟨th, h, rfl, rfl, rfl⟩
      · exact ⟨uh, hu, rfl, rfl, rfl⟩
    constructor
    · simpa using hi.threads
    · exact hi.shared
    · exact hi.out
    · intro u uh hu
      obtain ⟨uh', h1, h2, h3, _⟩ := look u uh hu
      rw [← h2, ← h3]; exact hi.suffix u uh' h1
    · intro u uh v hu hv
      rcases getElem?_set' h hu with ⟨rfl, rfl⟩ | ⟨_, hu⟩
      · exact ⟨i, j, idx, rest, ht, Option.some.inj hv⟩
      · exact hi.loaded u uh v hu hv
    · intro u v uh vh hu hv hlt
      obtain ⟨uh', h1, h2, h3, _⟩ := look u uh hu
      obtain ⟨vh', k1, k2, k3, _⟩ := look v vh hv
      rw [← h2, ← k2] at hlt ⊢
      rw [← k3]
      exact hi.barrier u v uh' vh' h1 k1 hlt
    · intro k hk hb uh hu
      obtain ⟨uh', h1, _, _, h4⟩ := look _ uh hu
      rw [← h4]; exact hi.cells k hk hb uh' h1
    · intro k hk uh hu ho
      obtain ⟨uh', h1, _, _, h4⟩ := look _ uh hu
      rw [← h4] at ho; exact hi.outs k hk uh' h1 ho
  | sync th h ht he ha =>
    rw [arrived_iff] at ha
    have hist_th : ∀ r, hist P t ⟨th.epoch + 1, segment P t (th.epoch + 1), r⟩ = hist P t th := by
      intro r
      rw [hist_barrier P t th.epoch th.loaded, ← ht]
    have look : ∀ (u : Nat) (uh : Thread w), (st.threads.set t ⟨th.epoch + 1, segment P t (th.epoch + 1), none⟩)[u]? = some uh →
        ∃ uh', st.threads[u]? = some uh' ∧ hist P u uh' = hist P u uh := by
      intro u uh hu
      rcases getElem?_set' h hu with ⟨rfl, rfl⟩ | ⟨_, hu⟩
      · exact ⟨th, h, (hist_th none).symm⟩
      · exact ⟨uh, hu, rfl⟩
    constructor
    · simpa using hi.threads
    · exact hi.shared
    · exact hi.out
    · intro u uh hu
      rcases getElem?_set' h hu with ⟨rfl, rfl⟩ | ⟨_, hu⟩
      · exact ⟨he, List.suffix_refl _⟩
      · exact hi.suffix u uh hu
    · intro u uh v hu hv
      rcases getElem?_set' h hu with ⟨rfl, rfl⟩ | ⟨_, hu⟩
      · cases hv
      · exact hi.loaded u uh v hu hv
    · intro u v uh vh hu hv hlt
      rcases getElem?_set' h hu with ⟨rfl, rfl⟩ | ⟨hut, hu2⟩
      · rcases getElem?_set' h hv with ⟨rfl, rfl⟩ | ⟨_, hv⟩
        · simp at hlt
        · simp only at hlt ⊢
          rcases ha v vh hv with h1 | ⟨h1, h2⟩
          · omega
          · exact ⟨h2, by omega⟩
      · rcases getElem?_set' h hv with ⟨rfl, rfl⟩ | ⟨_, hv⟩
        · simp only at hlt
          have := (hi.barrier u v uh th hu2 h (by omega)).2
          omega
        · exact hi.barrier u v uh vh hu2 hv hlt
    · intro k hk hb uh hu
      obtain ⟨uh', h1, h4⟩ := look _ uh hu
      rw [← h4]; exact hi.cells k hk hb uh' h1
    · intro k hk uh hu ho
      obtain ⟨uh', h1, h4⟩ := look _ uh hu
      rw [← h4] at ho; exact hi.outs k hk uh' h1 ho
  | exec th x rest st' h ht h1 h2 h3 h4 h5 =>
    obtain ⟨hep, hs⟩ := hi.suffix t th h
    have ht128 : t < ksThreads := by
      rw [← hi.threads]; exact (List.getElem?_eq_some_iff.1 h).1
    rw [ht] at hs
    have hx : x ∈ segment P t th.epoch := hs.subset List.mem_cons_self
    have hist_th : hist P t ⟨th.epoch, rest, none⟩ = hist P t th ++ [x] := by
      rw [hist_exec P t th.epoch x rest th.loaded none hs, ← ht]
    have hbt : x = .body → t = 0 := by
      rintro rfl
      rcases mem_segment P t _ ht128 _ hx with ⟨k, h, _⟩ | ⟨_, h, _⟩ | ⟨i, j, k, h, _⟩ | ⟨k, h, _⟩
      · cases h
      · exact h
      · cases h
      · cases h
    constructor
    · rw [h1]; simpa using hi.threads
    · rw [h2]; exact hi.shared
    · rw [h4]; exact hi.out
    · intro u uh hu
      rw [h1] at hu
      rcases getElem?_set' h hu with ⟨rfl, rfl⟩ | ⟨_, hu⟩
      · exact ⟨hep, (List.suffix_cons x rest).trans hs⟩
      · exact hi.suffix u uh hu
    · intro u uh v hu hv
      rw [h1] at hu
      rcases getElem?_set' h hu with ⟨rfl, rfl⟩ | ⟨hut, hu2⟩
      · cases hv
      · obtain ⟨i, j, k, r, e1, e2⟩ := hi.loaded u uh v hu2 hv
        refine ⟨i, j, k, r, e1, ?_⟩
        obtain ⟨_, hsu⟩ := hi.suffix u uh hu2
        have hu128 : u < ksThreads := by
          rw [← hi.threads]; exact (List.getElem?_eq_some_iff.1 hu2).1
        have hxu : Instr.sub i j k ∈ segment P u uh.epoch := by
          rw [e1] at hsu; exact hsu.subset List.mem_cons_self
        rcases mem_segment P u _ hu128 _ hxu with ⟨_, h', _⟩ | ⟨h', _⟩ | ⟨i', j', k', h', q1, q2, q3, _⟩ |
          ⟨_, h', _⟩
        · cases h'
        · cases h'
        · injection h' with _ _ hk
          subst hk
          rw [h3 k q1, ← e2]
          apply eff_other P t th.epoch k ht128 x hx (by rw [q2]; exact hut)
          intro hb
          have t0 := hbt hb
          subst t0
          have := (body_epoch P st hi th rest h (hb ▸ ht)).2 u uh hu2
          omega
        · cases h'
    · intro u v uh vh hu hv hlt
      rw [h1] at hu hv
      rcases getElem?_set' h hv with ⟨rfl, rfl⟩ | ⟨_, hv2⟩
      · rcases getElem?_set' h hu with ⟨rfl, rfl⟩ | ⟨_, hu2⟩
        · simp at hlt
        · have := (hi.barrier u v uh th hu2 h hlt).1
          rw [ht] at this; cases this
      · rcases getElem?_set' h hu with ⟨rfl, rfl⟩ | ⟨_, hu2⟩
        · exact hi.barrier u v th vh h hv2 hlt
        · exact hi.barrier u v uh vh hu2 hv2 hlt
    · intro k hk hb uh hu
      rw [h1] at hu
      rw [h3 k hk]
      rcases getElem?_set' h hu with ⟨e, rfl⟩ | ⟨hut, hu⟩
      · rw [e, hist_th, List.foldl_append, ← e, ← hi.cells k hk hb th (by rw [e]; exact h)]
        rfl
      · rw [eff_other P t th.epoch k ht128 x hx hut]
        · exact hi.cells k hk hb uh hu
        · intro hxb hdk
          have t0 := hbt hxb
          rcases hb with hb | hb
          · exact hb hdk.symm
          · rw [← hdk, hb] at hut; exact hut t0.symm
    · intro k hk uh hu ho
      rw [h1] at hu
      rcases getElem?_set' h hu with ⟨e, rfl⟩ | ⟨hut, hu2⟩
      · rw [e, hist_th] at ho
        rw [h3 k hk, h5 k hk]
        by_cases hxk : x = .out k
        · rw [if_pos hxk, hxk]; rfl
        · rw [if_neg hxk]
          rcases List.mem_append.1 ho with ho | ho
          · have hprev := hi.outs k hk th (by rw [e]; exact h) (by rw [e]; exact ho)
            obtain ⟨done, hd⟩ := hs
            have hin : Instr.out k ∈ done := by
              unfold hist at ho
              rcases List.mem_append.1 ho with ho | ho
              · obtain ⟨e', he', ho⟩ := List.mem_flatMap.1 ho
                have := List.mem_range.1 he'
                rcases mem_segment P t _ ht128 _ ho with ⟨_, h', _⟩ | ⟨h', _⟩ | ⟨_, _, _, h', _⟩ |
                  ⟨_, _, _, _, h'⟩
                · cases h'
                · cases h'
                · cases h'
                · omega
              · rw [ht, ← hd] at ho
                simpa using ho
            obtain ⟨k', rfl⟩ := outs_last P t th.epoch ht128 done rest x k hd.symm hin
            exact hprev
          · exact absurd (List.mem_singleton.1 ho).symm hxk
      · have hprev := hi.outs k hk uh hu2 ho
        rw [h5 k hk, h3 k hk, if_neg, eff_other P t th.epoch k ht128 x hx hut]
        · exact hprev
        · intro hxb _
          have t0 := hbt hxb
          subst t0
          have he := (body_epoch P st hi th rest h (hxb ▸ ht)).2 _ uh hu2
          obtain ⟨e', he', ho⟩ := mem_hist _ _ _ _ ho
          have hdim := hf.dim
          rcases mem_segment P _ _ (Nat.mod_lt _ (by norm_num)) _ ho with ⟨_, h', _⟩ | ⟨h', _⟩ |
            ⟨_, _, _, h', _⟩ | ⟨_, _, _, _, h'⟩
          · cases h'
          · cases h'
          · cases h'
          · omega
        · intro hxk
          rcases mem_segment P t _ ht128 _ hx with ⟨_, h', _⟩ | ⟨h', _⟩ | ⟨_, _, _, h', _⟩ |
            ⟨k', h', _, q, _⟩
          · rw [h'] at hxk; cases hxk
          · rw [h'] at hxk; cases hxk
          · rw [h'] at hxk; cases hxk
          · rw [h'] at hxk; injection hxk with hxk; subst hxk; exact hut q

end Verif.Cuda
