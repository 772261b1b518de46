import Verif.Cuda.PbsLowSpec
import Verif.Cuda.BarrierLemmas
import Mathlib.Tactic.Ring
import Mathlib.Tactic.Linarith
/-
Lemmas on the low latency bootstrap of CUDA: the intervals between the barriers, the owners of the places of the join
buffers, and the contents of the join buffers at the barriers.
-/
namespace Verif.Cuda.Low
open Grid

variable {P A : Type}

/-! ### The intervals between the barriers -/

theorem segments_ne {Loc V L : Type} (t : List (Op Loc V L)) : segments t ≠ [] := by
  cases t with
  | nil => simp [segments]
  | cons o t =>
    cases o with
    | sync => simp [segments]
    | instr i =>
      simp only [segments]
      cases segments t <;> simp

/-- The first interval gets more instructions. -/
def prepend {Loc V L : Type} (is : List (Instr Loc V L)) : Prog Loc V L → Prog Loc V L
  | [] => [is]
  | s :: ss => (is ++ s) :: ss

theorem segments_instrs {Loc V L : Type} (is : List (Instr Loc V L)) (t : List (Op Loc V L)) :
    segments (is.map Op.instr ++ t) = prepend is (segments t) := by
  induction is with
  | nil =>
    have := segments_ne t
    cases h : segments t with
    | nil => exact absurd h this
    | cons s ss => simp [prepend, h]
  | cons i is ih =>
    simp only [List.map_cons, List.cons_append, segments, ih]
    cases segments t <;> simp [prepend]

theorem segments_sync {Loc V L : Type} (is : List (Instr Loc V L)) (t : List (Op Loc V L)) :
    segments (is.map Op.instr ++ .sync :: t) = is :: segments t := by
  rw [segments_instrs, segments, prepend, List.append_nil]

/-- The instructions before the first barrier of an iteration. -/
def opening (K : Kernel P A) (x y z i : Nat) : List (Instr Place P (Regs P A)) :=
  [.comp fun r => { r with fft := K.prep i x y z r.acc }, .write (z, x, y) fun r => K.mul i x y y r.fft]

/-- The instructions before the next barriers of an iteration. -/
def round (K : Kernel P A) (k x y z i j : Nat) : List (Instr Place P (Regs P A)) :=
  [.read (z, x, (j + 1 + y) % (k + 1)) fun v r => { r with reg := v },
   .write (z, x, (j + 1 + y) % (k + 1)) fun r => K.add r.reg (K.mul i x y ((j + 1 + y) % (k + 1)) r.fft)]

/-- The instructions after the last barrier of an iteration. -/
def collect (K : Kernel P A) (l y z : Nat) : List (Instr Place P (Regs P A)) :=
  .read (z, 0, y) (fun v r => { r with fft := v }) ::
    ((List.range (l - 1)).map (fun v => .read (z, v + 1, y) fun w r => { r with fft := K.add r.fft w }) ++
    [.comp fun r => { r with acc := K.finish r.acc r.fft }])

theorem collect_drop (K : Kernel P A) (l y z v : Nat) (h : v < l) :
    ∃ f t, (collect K l y z).drop v = .read (z, v, y) f :: t := by
  cases v with
  | zero => exact ⟨_, _, rfl⟩
  | succ v =>
    have e : (collect K l y z).drop (v + 1) = .read (z, v + 1, y) (fun w r => { r with fft := K.add r.fft w }) ::
        (((List.range (l - 1)).map (fun v => .read (z, v + 1, y) fun w r => { r with fft := K.add r.fft w })).drop
          (v + 1) ++ [.comp fun r => { r with acc := K.finish r.acc r.fft }]) := by
      rw [collect, List.drop_succ_cons, List.drop_append_of_le_length (by simp; omega),
        List.drop_eq_getElem_cons (by simp; omega), List.cons_append]
      simp only [List.getElem_map, List.getElem_range]
    exact ⟨_, _, e⟩

/-- The intervals of the iterations from `i` on, `m` of them, after the instructions `pre`. -/
def tailSegs (K : Kernel P A) (k l x y z : Nat) : Nat → Nat → List (Instr Place P (Regs P A)) →
    Prog Place P (Regs P A)
  | 0, _, pre => [pre]
  | m + 1, i, pre => (pre ++ opening K x y z i) ::
      ((List.range k).map (round K k x y z i) ++ tailSegs K k l x y z m (i + 1) (collect K l y z))

theorem rounds_segments {Loc V L : Type} (js : List Nat) (f : Nat → List (Instr Loc V L))
    (t : List (Op Loc V L)) :
    segments (js.flatMap (fun j => (f j).map Op.instr ++ [.sync]) ++ t) = js.map f ++ segments t := by
  induction js with
  | nil => simp
  | cons j js ih =>
    rw [List.flatMap_cons, List.append_assoc, List.append_assoc, List.singleton_append, segments_sync, ih]
    simp

theorem iteration_eq (K : Kernel P A) (k l x y z i : Nat) (t : List (Op Place P (Regs P A))) :
    iteration K k l x y z i ++ t = (opening K x y z i).map Op.instr ++ .sync ::
      ((List.range k).flatMap (fun j => (round K k x y z i j).map Op.instr ++ [.sync]) ++
        ((collect K l y z).map Op.instr ++ t)) := by
  simp [iteration, opening, round, collect, List.map_eq_flatMap, List.flatMap_assoc]

theorem tail_segments (K : Kernel P A) (k l x y z : Nat) : ∀ (m i : Nat) (pre : List (Instr Place P (Regs P A))),
    segments (pre.map Op.instr ++ (List.range m).flatMap (fun q => iteration K k l x y z (i + q))) =
      tailSegs K k l x y z m i pre := by
  intro m
  induction m with
  | zero => intro i pre; rw [List.range_zero, List.flatMap_nil, segments_instrs]; simp [segments, prepend, tailSegs]
  | succ m ih =>
    intro i pre
    rw [List.range_succ_eq_map, List.flatMap_cons, iteration_eq, ← List.append_assoc, ← List.map_append, segments_sync,
      rounds_segments, List.flatMap_map]
    have := ih (i + 1) (collect K l y z)
    simp only [tailSegs, Nat.add_zero]
    rw [← this]
    simp only [Nat.succ_eq_add_one, Nat.add_comm, Nat.add_left_comm]

theorem tail_length (K : Kernel P A) (k l x y z : Nat) : ∀ (m i : Nat) (pre : List (Instr Place P (Regs P A))),
    (tailSegs K k l x y z m i pre).length = m * (k + 1) + 1 := by
  intro m
  induction m with
  | zero => intro i pre; simp [tailSegs]
  | succ m ih => intro i pre; simp [tailSegs, ih]; ring

theorem program_eq (K : Kernel P A) (d k l n : Nat) (b : Block k l n) :
    program K d k l n b = tailSegs K k l b.1 b.2.1 b.2.2 d 0 [] := by
  have := tail_segments K k l b.1 b.2.1 b.2.2 d 0 []
  simpa [program, code] using this

theorem tail_open (K : Kernel P A) (k l x y z : Nat) : ∀ (q m i : Nat) (pre : List (Instr Place P (Regs P A))),
    q < m → (tailSegs K k l x y z m i pre)[q * (k + 1)]? =
      some ((if q = 0 then pre else collect K l y z) ++ opening K x y z (i + q)) := by
  intro q
  induction q with
  | zero =>
    intro m i pre h
    obtain ⟨m, rfl⟩ := Nat.exists_eq_succ_of_ne_zero (by omega : m ≠ 0)
    simp [tailSegs]
  | succ q ih =>
    intro m i pre h
    obtain ⟨m, rfl⟩ := Nat.exists_eq_succ_of_ne_zero (by omega : m ≠ 0)
    have e : (q + 1) * (k + 1) = (k + q * (k + 1)) + 1 := by ring
    rw [tailSegs, e, List.getElem?_cons_succ, List.getElem?_append_right (by simp)]
    simp only [List.length_map, List.length_range, Nat.add_sub_cancel_left]
    rw [ih m (i + 1) _ (by omega)]
    have : i + 1 + q = i + (q + 1) := by omega
    simp [this]

theorem tail_last (K : Kernel P A) (k l x y z : Nat) : ∀ (m i : Nat) (pre : List (Instr Place P (Regs P A))),
    (tailSegs K k l x y z m i pre)[m * (k + 1)]? = some (if m = 0 then pre else collect K l y z) := by
  intro m
  induction m with
  | zero => intro i pre; simp [tailSegs]
  | succ m ih =>
    intro i pre
    have e : (m + 1) * (k + 1) = (k + m * (k + 1)) + 1 := by ring
    rw [tailSegs, e, List.getElem?_cons_succ, List.getElem?_append_right (by simp)]
    simp only [List.length_map, List.length_range, Nat.add_sub_cancel_left]
    rw [ih (i + 1)]
    simp

theorem tail_round (K : Kernel P A) (k l x y z : Nat) : ∀ (q m i : Nat) (pre : List (Instr Place P (Regs P A)))
    (j : Nat), q < m → j < k → (tailSegs K k l x y z m i pre)[q * (k + 1) + (j + 1)]? =
      some (round K k x y z (i + q) j) := by
  intro q
  induction q with
  | zero =>
    intro m i pre j h hj
    obtain ⟨m, rfl⟩ := Nat.exists_eq_succ_of_ne_zero (by omega : m ≠ 0)
    rw [tailSegs, Nat.zero_mul, Nat.zero_add, List.getElem?_cons_succ, List.getElem?_append_left (by simpa using hj)]
    simp [hj]
  | succ q ih =>
    intro m i pre j h hj
    obtain ⟨m, rfl⟩ := Nat.exists_eq_succ_of_ne_zero (by omega : m ≠ 0)
    have e : (q + 1) * (k + 1) + (j + 1) = (k + (q * (k + 1) + (j + 1))) + 1 := by ring
    rw [tailSegs, e, List.getElem?_cons_succ, List.getElem?_append_right (by simp)]
    simp only [List.length_map, List.length_range, Nat.add_sub_cancel_left]
    rw [ih m (i + 1) _ j (by omega) hj]
    have : i + 1 + q = i + (q + 1) := by omega
    rw [this]

theorem program_length (K : Kernel P A) (d k l n : Nat) (b : Block k l n) :
    (program K d k l n b).length = d * (k + 1) + 1 := by rw [program_eq, tail_length]

theorem seg_open (K : Kernel P A) (d k l n : Nat) (b : Block k l n) (i : Nat) (h : i < d) :
    seg (program K d k l n) b (i * (k + 1)) =
      (if i = 0 then [] else collect K l b.2.1 b.2.2) ++ opening K b.1 b.2.1 b.2.2 i := by
  rw [seg, program_eq, tail_open _ _ _ _ _ _ _ _ _ _ h]; simp

theorem seg_last (K : Kernel P A) (d k l n : Nat) (b : Block k l n) :
    seg (program K d k l n) b (d * (k + 1)) = if d = 0 then [] else collect K l b.2.1 b.2.2 := by
  rw [seg, program_eq, tail_last]; rfl

theorem seg_round (K : Kernel P A) (d k l n : Nat) (b : Block k l n) (i j : Nat) (h : i < d) (hj : j < k) :
    seg (program K d k l n) b (i * (k + 1) + (j + 1)) = round K k b.1 b.2.1 b.2.2 i j := by
  rw [seg, program_eq, tail_round _ _ _ _ _ _ _ _ _ _ _ h hj]; simp

theorem seg_beyond (K : Kernel P A) (d k l n : Nat) (b : Block k l n) (e : Nat) (h : d * (k + 1) < e) :
    seg (program K d k l n) b e = [] := by
  rw [seg, List.getElem?_eq_none (by rw [program_length]; omega)]; rfl

/-! ### The owners of the places -/

theorem mod_of_le (n x : Nat) (h : n ≤ x) (h2 : x < n + n) : x % n = x - n := by
  rw [Nat.mod_eq_sub_mod h, Nat.mod_eq_of_lt (by omega)]

theorem rotate_back (k j y : Nat) (hj : j ≤ k) (hy : y ≤ k) :
    ((j + y) % (k + 1) + (k + 1) - j) % (k + 1) = y := by
  by_cases h : j + y < k + 1
  · rw [Nat.mod_eq_of_lt h, mod_of_le _ _ (by omega) (by omega)]
    omega
  · rw [mod_of_le _ (j + y) (by omega) (by omega), Nat.mod_eq_of_lt (by omega)]
    omega

theorem rotate_forth (k j c : Nat) (hj : j ≤ k) (hc : c ≤ k) :
    (j + (c + (k + 1) - j) % (k + 1)) % (k + 1) = c := by
  by_cases h : c < j
  · rw [Nat.mod_eq_of_lt (by omega : c + (k + 1) - j < k + 1), mod_of_le _ _ (by omega) (by omega)]
    omega
  · rw [mod_of_le _ (c + (k + 1) - j) (by omega) (by omega), Nat.mod_eq_of_lt (by omega)]
    omega

theorem twice (k c j : Nat) (hc : c ≤ k) (hj : j ≤ k) :
    (c + (k + 1) - (c + (k + 1) - j) % (k + 1)) % (k + 1) = j := by
  by_cases h : c < j
  · rw [Nat.mod_eq_of_lt (by omega : c + (k + 1) - j < k + 1), Nat.mod_eq_of_lt (by omega)]
    omega
  · rw [mod_of_le _ (c + (k + 1) - j) (by omega) (by omega), mod_of_le _ _ (by omega) (by omega)]
    omega

/-- The block that may write to a place between barriers `e` and `e + 1`. -/
def owner (d k l n e : Nat) (p : Place) : Option (Block k l n) :=
  if h : p.2.1 < l ∧ p.2.2 ≤ k ∧ p.1 < n ∧ e < d * (k + 1) then
    some (⟨p.2.1, h.1⟩, ⟨(p.2.2 + (k + 1) - e % (k + 1)) % (k + 1), Nat.mod_lt _ (Nat.succ_pos k)⟩, ⟨p.1, h.2.2.1⟩)
  else none

theorem epoch_lt {d k i j : Nat} (h : i < d) (hj : j ≤ k) : i * (k + 1) + j < d * (k + 1) := by
  calc i * (k + 1) + j < i * (k + 1) + (k + 1) := by omega
    _ = (i + 1) * (k + 1) := by ring
    _ ≤ d * (k + 1) := Nat.mul_le_mul_right _ h

theorem epoch_mod {k i j : Nat} (hj : j ≤ k) : (i * (k + 1) + j) % (k + 1) = j := by
  rw [Nat.add_comm, Nat.add_mul_mod_self_right, Nat.mod_eq_of_lt (by omega)]

theorem owner_eq (d k l n i j : Nat) (h : i < d) (hj : j ≤ k) (z v c : Nat) (hv : v < l) (hc : c ≤ k) (hz : z < n) :
    owner d k l n (i * (k + 1) + j) (z, v, c) =
      some (⟨v, hv⟩, ⟨(c + (k + 1) - j) % (k + 1), Nat.mod_lt _ (Nat.succ_pos k)⟩, ⟨z, hz⟩) := by
  unfold owner
  rw [dif_pos ⟨hv, hc, hz, epoch_lt h hj⟩]
  simp only [epoch_mod hj]

theorem owner_self (d k l n i j : Nat) (h : i < d) (hj : j ≤ k) (b : Block k l n) :
    owner d k l n (i * (k + 1) + j) ((b.2.2 : Nat), (b.1 : Nat), (j + b.2.1) % (k + 1)) = some b := by
  have hy : (b.2.1 : Nat) ≤ k := Nat.le_of_lt_succ b.2.1.2
  rw [owner_eq d k l n i j h hj _ _ _ b.1.2 (Nat.le_of_lt_succ (Nat.mod_lt _ (Nat.succ_pos k))) b.2.2.2]
  simp only [rotate_back k j b.2.1 hj hy]

theorem epoch_cases (d k e : Nat) : d * (k + 1) < e ∨ e = d * (k + 1) ∨
    ∃ i j, i < d ∧ j ≤ k ∧ e = i * (k + 1) + j := by
  rcases Nat.lt_trichotomy e (d * (k + 1)) with h | h | h
  · refine .inr (.inr ⟨e / (k + 1), e % (k + 1), (Nat.div_lt_iff_lt_mul (Nat.succ_pos k)).mpr h,
      Nat.le_of_lt_succ (Nat.mod_lt _ (Nat.succ_pos k)), ?_⟩)
    rw [Nat.mul_comm]; exact (Nat.div_add_mod e (k + 1)).symm
  · exact .inr (.inl h)
  · exact .inl h

/-- With one level, or with at most one iteration, no block accesses a place that another one writes between the
same barriers. -/
theorem race_free (K : Kernel P A) (d k l n : Nat) (hld : l ≤ 1 ∨ d ≤ 1) :
    RaceFree (program K d k l n) (owner d k l n) := by
  intro b e ins hins
  have hy : (b.2.1 : Nat) ≤ k := Nat.le_of_lt_succ b.2.1.2
  have hcollect : ∀ (e : Nat), ins ∈ collect K l b.2.1 b.2.2 →
      (∀ v, v < l → owner d k l n e ((b.2.2 : Nat), v, (b.2.1 : Nat)) = some b ∨
        owner d k l n e ((b.2.2 : Nat), v, (b.2.1 : Nat)) = none) → Respects (owner d k l n e) b ins := by
    intro e hm hr
    simp only [collect, List.mem_cons, List.mem_append, List.mem_map, List.mem_range, List.not_mem_nil, or_false] at hm
    have hl : 0 < l := Nat.lt_of_le_of_lt (Nat.zero_le _) b.1.2
    rcases hm with rfl | ⟨v, hv, rfl⟩ | rfl
    · exact hr 0 hl
    · exact hr (v + 1) (by omega)
    · trivial
  rcases epoch_cases d k e with he | he | ⟨i, j, hi, hj, he⟩
  · rw [seg_beyond K d k l n b e he] at hins
    exact absurd hins (by simp)
  · subst he
    rw [seg_last] at hins
    split at hins
    · exact absurd hins (by simp)
    · refine hcollect _ hins (fun v hv => .inr ?_)
      unfold owner
      rw [dif_neg (by simp)]
  · subst he
    cases j with
    | zero =>
      rw [Nat.add_zero, seg_open K d k l n b i hi] at hins
      rw [List.mem_append] at hins
      have h0 := owner_self d k l n i 0 hi (Nat.zero_le _) b
      rw [Nat.zero_add, Nat.mod_eq_of_lt (by omega : (b.2.1 : Nat) < k + 1)] at h0
      rcases hins with hins | hins
      · split at hins
        · exact absurd hins (by simp)
        · refine hcollect _ hins (fun v hv => .inl ?_)
          have hb := b.1.2
          have hv0 : v = (b.1 : Nat) := by omega
          rw [hv0]; exact h0
      · simp only [opening, List.mem_cons, List.not_mem_nil, or_false] at hins
        rcases hins with rfl | rfl
        · trivial
        · exact h0
    | succ j =>
      rw [seg_round K d k l n b i j hi (by omega)] at hins
      have h0 := owner_self d k l n i (j + 1) hi hj b
      simp only [round, List.mem_cons, List.not_mem_nil, or_false] at hins
      rcases hins with rfl | rfl
      · exact .inl h0
      · exact h0

theorem one_writer (K : Kernel P A) (d k l n : Nat) : OneWriter (program K d k l n) (owner d k l n) := by
  intro b e p f hins
  have hy : (b.2.1 : Nat) ≤ k := Nat.le_of_lt_succ b.2.1.2
  have hcollect : Instr.write p f ∉ collect K l b.2.1 b.2.2 := by simp [collect]
  rcases epoch_cases d k e with he | he | ⟨i, j, hi, hj, he⟩
  · rw [seg_beyond K d k l n b e he] at hins
    exact absurd hins (by simp)
  · subst he
    rw [seg_last] at hins
    split at hins
    · exact absurd hins (by simp)
    · exact absurd hins hcollect
  · subst he
    cases j with
    | zero =>
      rw [Nat.add_zero, seg_open K d k l n b i hi] at hins
      rw [List.mem_append] at hins
      have h0 := owner_self d k l n i 0 hi (Nat.zero_le _) b
      rw [Nat.zero_add, Nat.mod_eq_of_lt (by omega : (b.2.1 : Nat) < k + 1)] at h0
      rcases hins with hins | hins
      · split at hins
        · exact absurd hins (by simp)
        · exact absurd hins hcollect
      · simp only [opening, List.mem_cons, List.not_mem_nil, or_false, reduceCtorEq, false_or, Instr.write.injEq] at hins
        rw [hins.1]; exact h0
    | succ j =>
      rw [seg_round K d k l n b i j hi (by omega)] at hins
      have h0 := owner_self d k l n i (j + 1) hi hj b
      simp only [round, List.mem_cons, List.not_mem_nil, or_false, reduceCtorEq, false_or, Instr.write.injEq] at hins
      rw [hins.1]; exact h0

/-! ### The contents of the join buffers at the barriers -/

/-- The contributions of level `v` after `j` rounds. -/
def joinedTo (K : Kernel P A) (k : Nat) (acc : Nat → Nat → Nat → A) (i z v c j : Nat) : P :=
  (List.range j).foldl (fun s j => K.add s (product K acc i z v ((c + (k + 1) - (j + 1)) % (k + 1)) c))
    (product K acc i z v c c)

theorem joinedTo_succ (K : Kernel P A) (k : Nat) (acc : Nat → Nat → Nat → A) (i z v c j : Nat) :
    joinedTo K k acc i z v c (j + 1) = K.add (joinedTo K k acc i z v c j)
      (product K acc i z v ((c + (k + 1) - (j + 1)) % (k + 1)) c) := by
  simp [joinedTo, List.range_succ]

theorem solo_reads (K : Kernel P A) (y z : Nat) (vs : List Nat) (m : Place → P) : ∀ (r : Regs P A),
    solo (vs.map (fun v => Instr.read (z, v + 1, y) fun w r => { r with fft := K.add r.fft w })) (m, r) =
      (m, { r with fft := vs.foldl (fun s v => K.add s (m (z, v + 1, y))) r.fft }) := by
  induction vs with
  | nil => intro r; rfl
  | cons v vs ih =>
    intro r
    simp only [List.map_cons, List.foldl_cons]
    rw [show ∀ (i : Instr Place P (Regs P A)) is (q : (Place → P) × Regs P A), solo (i :: is) q = solo is (i.run q)
      from fun _ _ _ => rfl]
    exact ih _

theorem solo_collect (K : Kernel P A) (l y z : Nat) (m : Place → P) (r : Regs P A) :
    (solo (collect K l y z) (m, r)).1 = m ∧
    (solo (collect K l y z) (m, r)).2.acc = K.finish r.acc
      ((List.range (l - 1)).foldl (fun s v => K.add s (m (z, v + 1, y))) (m (z, 0, y))) := by
  have e : solo (collect K l y z) (m, r) = solo ((List.range (l - 1)).map
      (fun v => Instr.read (z, v + 1, y) fun w r => { r with fft := K.add r.fft w }) ++
    [.comp fun r => { r with acc := K.finish r.acc r.fft }]) (m, { r with fft := m (z, 0, y) }) := rfl
  rw [e, solo_append, solo_reads]
  exact ⟨rfl, rfl⟩

/-- The state after `j + 1` rounds of iteration `i`. -/
structure At (K : Kernel P A) (k l n : Nat) (acc0 : Nat → Nat → Nat → A) (i j : Nat)
    (p : (Place → P) × (Block k l n → Regs P A)) : Prop where
  mem : ∀ z v c, z < n → v < l → c ≤ k → p.1 (z, v, c) = joinedTo K k (accAt K k l acc0 i) i z v c j
  acc : ∀ b : Block k l n, (p.2 b).acc = accAt K k l acc0 i b.1 b.2.1 b.2.2
  fft : ∀ b : Block k l n, (p.2 b).fft = K.prep i b.1 b.2.1 b.2.2 (accAt K k l acc0 i b.1 b.2.1 b.2.2)

variable (K : Kernel P A) (d k l n : Nat) (acc0 : Nat → Nat → Nat → A) (m : Place → P)
  (r : Block k l n → Regs P A)

/-- The state at the start of interval `e`. -/
abbrev state (e : Nat) := after (program K d k l n) (owner d k l n) m r e

theorem state_mem (e : Nat) (p : Place) (b : Block k l n) (h : owner d k l n e p = some b) :
    (state K d k l n m r (e + 1)).1 p = (solo (seg (program K d k l n) b e)
      ((state K d k l n m r e).1, (state K d k l n m r e).2 b)).1 p :=
  after_mem _ _ _ _ _ _ _ h

theorem state_own (e : Nat) (b : Block k l n) :
    (state K d k l n m r (e + 1)).2 b = (solo (seg (program K d k l n) b e)
      ((state K d k l n m r e).1, (state K d k l n m r e).2 b)).2 := rfl

theorem at_round (i j : Nat) (hi : i < d) (hj : j < k)
    (h : At K k l n acc0 i j (state K d k l n m r (i * (k + 1) + (j + 1)))) :
    At K k l n acc0 i (j + 1) (state K d k l n m r (i * (k + 1) + (j + 1) + 1)) := by
  have hs := fun b => seg_round K d k l n b i j hi hj
  generalize hp : state K d k l n m r (i * (k + 1) + (j + 1)) = p at h
  refine ⟨?_, ?_, ?_⟩
  · intro z v c hz hv hc
    rw [state_mem K d k l n m r _ _ _ (owner_eq d k l n i (j + 1) hi (by omega) z v c hv hc hz), hs, hp]
    have hrot := rotate_forth k (j + 1) c (by omega) hc
    simp only [round, solo, List.foldl_cons, List.foldl_nil, Instr.run, hrot, Function.update_self]
    rw [joinedTo_succ, h.mem z v c hz hv hc, h.fft]
    rfl
  · intro b
    rw [state_own, hs, hp]
    exact h.acc b
  · intro b
    rw [state_own, hs, hp]
    exact h.fft b

/-- The last instructions of an iteration compute the next accumulator. -/
theorem collect_acc (i : Nat) (b : Block k l n) (p : (Place → P) × (Block k l n → Regs P A))
    (h : At K k l n acc0 i k p) :
    (solo (collect K l b.2.1 b.2.2) (p.1, p.2 b)).2.acc = accAt K k l acc0 (i + 1) b.1 b.2.1 b.2.2 := by
  have hy : (b.2.1 : Nat) ≤ k := Nat.le_of_lt_succ b.2.1.2
  have hl : 0 < l := Nat.lt_of_le_of_lt (Nat.zero_le _) b.1.2
  rw [(solo_collect K l _ _ _ _).2, h.acc]
  simp only [accAt, external]
  congr 1
  rw [h.mem _ _ _ b.2.2.2 hl hy]
  refine List.foldl_ext _ _ _ (fun s v hv => ?_)
  rw [List.mem_range] at hv
  rw [h.mem _ _ _ b.2.2.2 (by omega) hy]
  rfl

theorem opening_at (i : Nat) (hi : i < d) (p : (Place → P) × (Block k l n → Regs P A))
    (hp : p = state K d k l n m r (i * (k + 1)))
    (hm : ∀ b, (solo (if i = 0 then [] else collect K l b.2.1 b.2.2) (p.1, p.2 b)).2.acc =
      accAt K k l acc0 i b.1 b.2.1 b.2.2) :
    At K k l n acc0 i 0 (state K d k l n m r (i * (k + 1) + 1)) := by
  have hs := fun b => seg_open K d k l n b i hi
  refine ⟨?_, ?_, ?_⟩
  · intro z v c hz hv hc
    have ho := owner_eq d k l n i 0 hi (Nat.zero_le _) z v c hv hc hz
    have h0 : (c + (k + 1) - 0) % (k + 1) = c := by
      rw [Nat.sub_zero, Nat.add_mod_right, Nat.mod_eq_of_lt (by omega)]
    simp only [Nat.add_zero, h0] at ho
    rw [state_mem K d k l n m r _ _ _ ho, hs, ← hp, solo_append]
    have hm' := hm (⟨v, hv⟩, ⟨c, by omega⟩, ⟨z, hz⟩)
    generalize solo (if i = 0 then [] else _) (p.1, _) = q at hm' ⊢
    simp only [opening, solo, List.foldl_cons, List.foldl_nil, Instr.run, Function.update_self, joinedTo,
      List.range_zero, product]
    rw [hm']
  · intro b
    rw [state_own, hs, ← hp, solo_append]
    exact hm b
  · intro b
    rw [state_own, hs, ← hp, solo_append]
    exact congrArg (K.prep i _ _ _) (hm b)

theorem at_rounds (i : Nat) (hi : i < d) (h : At K k l n acc0 i 0 (state K d k l n m r (i * (k + 1) + 1))) :
    ∀ j, j ≤ k → At K k l n acc0 i j (state K d k l n m r (i * (k + 1) + (j + 1))) := by
  intro j
  induction j with
  | zero => intro _; exact h
  | succ j ih => intro hj; exact at_round K d k l n acc0 m r i j hi (by omega) (ih (by omega))

theorem at_all (hr : ∀ b, (r b).acc = acc0 b.1 b.2.1 b.2.2) : ∀ i, i < d →
    At K k l n acc0 i k (state K d k l n m r ((i + 1) * (k + 1))) := by
  intro i
  induction i with
  | zero =>
    intro hi
    have := at_rounds K d k l n acc0 m r 0 hi
      (opening_at K d k l n acc0 m r 0 hi _ rfl (fun b => by simpa [solo, after, accAt] using hr b)) k le_rfl
    have e : 0 * (k + 1) + (k + 1) = (0 + 1) * (k + 1) := by ring
    rwa [e] at this
  | succ i ih =>
    intro hi
    have h := ih (by omega)
    have := at_rounds K d k l n acc0 m r (i + 1) hi
      (opening_at K d k l n acc0 m r (i + 1) hi _ rfl (fun b => by
        simpa using collect_acc K k l n acc0 i b _ h)) k le_rfl
    have e : (i + 1) * (k + 1) + (k + 1) = (i + 1 + 1) * (k + 1) := by ring
    rwa [e] at this

/-- The accumulators at the end. -/
theorem after_end (hr : ∀ b, (r b).acc = acc0 b.1 b.2.1 b.2.2) (b : Block k l n) :
    ((after (program K d k l n) (owner d k l n) m r (d * (k + 1) + 1)).2 b).acc =
      accAt K k l acc0 d b.1 b.2.1 b.2.2 := by
  simp only [after, seg_last]
  cases d with
  | zero => simpa [solo, after, accAt] using hr b
  | succ d =>
    simp only [Nat.succ_ne_zero, if_false]
    exact collect_acc K k l n acc0 d b _ (at_all K (d + 1) k l n acc0 m r hr d (by omega))

end Verif.Cuda.Low
