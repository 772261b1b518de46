import Verif.Cuda.ThreadKernels
import Verif.Glwe.Lemmas
/-
Lemmas on the sample extraction by the threads of a block.
-/
namespace Verif.Cuda.Thr
open Grid Verif.Poly

variable {w : Nat}

/-- Code before the first barrier of a program. -/
def prepend (a : List (Ins w)) : Prog Loc (BitVec w) (Regs w) → Prog Loc (BitVec w) (Regs w)
  | [] => [a]
  | s :: ss => (a ++ s) :: ss

theorem segments_prepend (a : List (Ins w)) (c : Code w) : segments (plain a ++ c) = prepend a (segments c) := by
  have hne : segments c ≠ [] := by
    cases c with
    | nil => simp [segments]
    | cons o c =>
      cases o with
      | sync => simp [segments]
      | instr i => simp only [segments]; split <;> simp
  induction a with
  | nil => cases h : segments c with
    | nil => exact absurd h hne
    | cons s ss => simp [plain, prepend, h]
  | cons i a ih =>
    rw [plain] at ih ⊢
    rw [List.map_cons, List.cons_append, segments, ih]
    cases h : segments c with
    | nil => exact absurd h hne
    | cons s ss => rfl

/-! The five stretches of the extraction of polynomial `z` -/

def xNeg (T opt z t : Nat) : List (Ins w) :=
  loop T opt t fun tid => [rd .acc (z * (T * opt) + tid) opt, wr .acc (z * (T * opt) + tid) fun r => -r opt]
def xRev (T opt z t : Nat) : List (Ins w) :=
  (List.range opt).map fun i => rd .acc (z * (T * opt) + (T * opt - (t + i * T) - 1)) i
def xWr (T opt z t : Nat) : List (Ins w) :=
  (List.range opt).map fun i => wr .acc (z * (T * opt) + (t + i * T)) fun r => r i
def xMul (T opt z t : Nat) : List (Ins w) :=
  (List.range opt).flatMap fun i =>
    if t + i * T < 1 then [rd .acc (z * (T * opt) + (t + i * T + T * opt - 1)) i, op i fun r => -r i]
    else [rd .acc (z * (T * opt) + (t + i * T - 1)) i]
def xCopy (T opt z t : Nat) : List (Ins w) :=
  loop T opt t fun tid => [rd .acc (z * (T * opt) + tid) opt, wr .out (z * (T * opt) + tid) fun r => r opt]
def xBody (T opt k t : Nat) : List (Ins w) :=
  if t = 0 then [rd .acc (k * (T * opt)) opt, wr .out (k * (T * opt)) fun r => r opt] else []

/-- What follows the extraction of a polynomial without a barrier: the negation of the next one or the body. -/
def xNext (T opt k z t : Nat) : List (Ins w) := if z < k then xNeg T opt z t else xBody T opt k t

/-- The words written by a stretch, which thread `q % T` writes. -/
def ownX (T : Nat) (hT : 0 < T) (D : Loc → Bool) (ℓ : Loc) : Option (Fin T) :=
  if D ℓ then some ⟨ℓ.2 % T, Nat.mod_lt _ hT⟩ else none

/-- The words of polynomial `z` of array `A`. -/
def inPoly (N : Nat) (A : Arr) (z : Nat) (ℓ : Loc) : Bool := ℓ.1 = A ∧ z * N ≤ ℓ.2 ∧ ℓ.2 < z * N + N

theorem word_mod (T opt z t i : Nat) (ht : t < T) : (z * (T * opt) + (t + i * T)) % T = t := by
  rw [show z * (T * opt) + (t + i * T) = t + T * (z * opt + i) by ring, Nat.add_mul_mod_self_left, Nat.mod_eq_of_lt ht]

theorem tid_lt (T opt t i : Nat) (ht : t < T) (hi : i < opt) : t + i * T < T * opt := by
  have : (i + 1) * T ≤ opt * T := Nat.mul_le_mul_right _ hi
  rw [Nat.add_mul, Nat.one_mul] at this
  rw [Nat.mul_comm T opt]; omega

theorem tid_split (T opt c : Nat) (hc : c < T * opt) : c / T < opt ∧ c = c % T + c / T * T := by
  refine ⟨Nat.div_lt_of_lt_mul hc, ?_⟩
  have := Nat.div_add_mod c T
  rw [Nat.mul_comm] at this
  omega

/-- A loop that copies, through a function, a polynomial of `A` to the same place of `A'`. -/
theorem move_solo (T opt z t : Nat) (hT : 0 < T) (A A' : Arr) (g : BitVec w → BitVec w) (m : Loc → BitVec w)
    (r : Regs w) :
    let code := loop T opt t fun tid => [rd A (z * (T * opt) + tid) opt, wr A' (z * (T * opt) + tid) fun r => g (r opt)]
    (∀ i, i < opt → (solo code (m, r)).1 (A', z * (T * opt) + (t + i * T)) = g (m (A, z * (T * opt) + (t + i * T)))) ∧
    ∀ ℓ : Loc, (∀ i, i < opt → ℓ ≠ (A', z * (T * opt) + (t + i * T))) → (solo code (m, r)).1 ℓ = m ℓ := by
  intro code
  have hinj : ∀ i j, z * (T * opt) + (t + i * T) = z * (T * opt) + (t + j * T) → i = j := by
    intro i j h
    exact Nat.eq_of_mul_eq_mul_right hT (by omega)
  have key := fun m r ℓ => solo_cells
    (fun i => [rd A (z * (T * opt) + (t + i * T)) opt, wr A' (z * (T * opt) + (t + i * T)) fun r => g (r opt)])
    (fun i ℓ => ℓ = (A', z * (T * opt) + (t + i * T))) (fun ℓ m => g (m (A, ℓ.2))) (List.range opt)
    List.nodup_range
    (by
      intro i _ m r ℓ
      constructor
      · rintro rfl; simp [solo, rd, wr, Instr.run]
      · intro h; simp [solo, rd, wr, Instr.run, Function.update, h])
    (by
      rintro i _ ℓ rfl m m' h
      simp only
      rw [h]
      intro j _ hj
      exact (hinj _ _ (Prod.mk.inj hj).2).symm)
    (by
      rintro i _ j _ ℓ rfl h
      exact hinj _ _ (Prod.mk.inj h).2) m r ℓ
  exact ⟨fun i hi => (key m r _).1 i (List.mem_range.2 hi) rfl,
    fun ℓ h => (key m r ℓ).2 fun i hi => h i (List.mem_range.1 hi)⟩

/-- Reads of words into registers. -/
theorem reads_solo (n : Nat) (A : Arr) (q : Nat → Nat) (m : Loc → BitVec w) (r : Regs w) :
    (solo ((List.range n).map fun i => rd A (q i) i) (m, r)).1 = m ∧
    ∀ i, (solo ((List.range n).map fun i => rd A (q i) i) (m, r)).2 i = if i < n then m (A, q i) else r i := by
  induction n with
  | zero => exact ⟨rfl, fun i => by simp [solo]⟩
  | succ n ih =>
    rw [List.range_succ, List.map_append, solo_append]
    obtain ⟨h1, h2⟩ := ih
    generalize solo ((List.range n).map fun i => rd A (q i) i) (m, r) = s at *
    obtain ⟨m1, r1⟩ := s
    simp only at h1 h2
    subst h1
    refine ⟨rfl, fun i => ?_⟩
    simp only [List.map_cons, List.map_nil, solo, List.foldl_cons, List.foldl_nil, rd, Instr.run, Function.update]
    by_cases hi : i = n
    · subst hi; simp
    · simp only [hi, dite_false, h2]
      split_ifs <;> first | rfl | omega

/-- The reads of the multiplication by `X`. -/
theorem mul_solo (T opt z t : Nat) (n : Nat) (m : Loc → BitVec w) (r : Regs w) :
    let code : List (Ins w) := (List.range n).flatMap fun i =>
      if t + i * T < 1 then [rd .acc (z * (T * opt) + (t + i * T + T * opt - 1)) i, op i fun r => -r i]
      else [rd .acc (z * (T * opt) + (t + i * T - 1)) i]
    (solo code (m, r)).1 = m ∧
    ∀ i, (solo code (m, r)).2 i = if i < n then
      (if t + i * T < 1 then -m (.acc, z * (T * opt) + (t + i * T + T * opt - 1))
        else m (.acc, z * (T * opt) + (t + i * T - 1))) else r i := by
  induction n with
  | zero => exact ⟨rfl, fun i => by simp [solo]⟩
  | succ n ih =>
    simp only at ih ⊢
    rw [List.range_succ, List.flatMap_append, solo_append]
    obtain ⟨h1, h2⟩ := ih
    generalize solo ((List.range n).flatMap fun i =>
      if t + i * T < 1 then [rd .acc (z * (T * opt) + (t + i * T + T * opt - 1)) i, op i fun r => -r i]
      else [rd .acc (z * (T * opt) + (t + i * T - 1)) i]) (m, r) = s at *
    obtain ⟨m1, r1⟩ := s
    simp only at h1 h2
    subst h1
    rw [List.flatMap_cons, List.flatMap_nil, List.append_nil]
    split_ifs with hc
    · refine ⟨rfl, fun i => ?_⟩
      simp only [solo, List.foldl_cons, List.foldl_nil, rd, op, Instr.run, Function.update]
      by_cases hi : i = n
      · subst hi; simp [hc]
      · simp only [hi, dite_false, h2]
        split_ifs <;> first | rfl | omega
    · refine ⟨rfl, fun i => ?_⟩
      simp only [solo, List.foldl_cons, List.foldl_nil, rd, Instr.run, Function.update]
      by_cases hi : i = n
      · subst hi; simp [hc]
      · simp only [hi, dite_false, h2]
        split_ifs <;> first | rfl | omega

/-- Writes of registers to words. -/
theorem writes_solo (n : Nat) (A : Arr) (q : Nat → Nat) (hq : ∀ i j, q i = q j → i = j) (m : Loc → BitVec w)
    (r : Regs w) :
    (∀ i, i < n → (solo ((List.range n).map fun i => wr A (q i) fun r => r i) (m, r)).1 (A, q i) = r i) ∧
    (∀ ℓ, (∀ i, i < n → ℓ ≠ (A, q i)) → (solo ((List.range n).map fun i => wr A (q i) fun r => r i) (m, r)).1 ℓ = m ℓ) ∧
    (solo ((List.range n).map fun i => wr A (q i) fun r => r i) (m, r)).2 = r := by
  induction n with
  | zero => exact ⟨fun i hi => absurd hi (by omega), fun _ _ => rfl, rfl⟩
  | succ n ih =>
    rw [List.range_succ, List.map_append, solo_append]
    obtain ⟨h1, h2, h3⟩ := ih
    generalize solo ((List.range n).map fun i => wr A (q i) fun r => r i) (m, r) = s at *
    obtain ⟨m1, r1⟩ := s
    simp only at h1 h2 h3
    subst h3
    simp only [List.map_cons, List.map_nil, solo, List.foldl_cons, List.foldl_nil, wr, Instr.run]
    refine ⟨fun i hi => ?_, fun ℓ hℓ => ?_, trivial⟩
    · by_cases e : i = n
      · subst e; simp
      · rw [Function.update_of_ne, h1 i (by omega)]
        intro h
        exact e (hq _ _ (Prod.mk.inj h).2)
    · rw [Function.update_of_ne (hℓ n (by omega)), h2 ℓ fun i hi => hℓ i (by omega)]

theorem inPoly_iff {N z : Nat} {A : Arr} {ℓ : Loc} :
    inPoly N A z ℓ = true ↔ ℓ.1 = A ∧ z * N ≤ ℓ.2 ∧ ℓ.2 < z * N + N := by simp [inPoly]

/-- The words of a polynomial that thread `t` visits. -/
theorem inPoly_thread (T opt z t : Nat) (ht : t < T) (A : Arr) (ℓ : Loc) :
    (inPoly (T * opt) A z ℓ = true ∧ ℓ.2 % T = t) ↔ ∃ i, i < opt ∧ ℓ = (A, z * (T * opt) + (t + i * T)) := by
  rw [inPoly_iff]
  constructor
  · rintro ⟨⟨ha, h1, h2⟩, h3⟩
    obtain ⟨c, hc⟩ := Nat.exists_eq_add_of_le h1
    obtain ⟨hi, hs⟩ := tid_split T opt c (by omega)
    refine ⟨c / T, hi, Prod.ext ha ?_⟩
    have : c % T = t := by
      rw [← h3, hc, show z * (T * opt) + c = c + T * (z * opt) by ring, Nat.add_mul_mod_self_left]
    rw [hc]; simp only; omega
  · rintro ⟨i, hi, rfl⟩
    have := tid_lt T opt t i ht hi
    exact ⟨⟨rfl, by simp only; omega, by simp only; omega⟩, word_mod T opt z t i ht⟩

/-- `move_solo`, all the words at once. -/
theorem move_mem (T opt z t : Nat) (ht : t < T) (A A' : Arr) (g : BitVec w → BitVec w) (m : Loc → BitVec w)
    (r : Regs w) :
    (solo (loop T opt t fun tid => [rd A (z * (T * opt) + tid) opt, wr A' (z * (T * opt) + tid) fun r => g (r opt)])
      (m, r)).1 = fun ℓ => if inPoly (T * opt) A' z ℓ = true ∧ ℓ.2 % T = t then g (m (A, ℓ.2)) else m ℓ := by
  obtain ⟨h1, h2⟩ := move_solo T opt z t (by omega) A A' g m r
  funext ℓ
  split_ifs with h
  · obtain ⟨i, hi, rfl⟩ := (inPoly_thread T opt z t ht A' ℓ).1 h
    exact h1 i hi
  · refine h2 ℓ fun i hi e => h ((inPoly_thread T opt z t ht A' ℓ).2 ⟨i, hi, e⟩)

/-- The writes of the registers of thread `t` to its words of polynomial `z`. -/
theorem xWr_mem (T opt z t : Nat) (ht : t < T) (m : Loc → BitVec w) (r : Regs w) :
    (solo (xWr T opt z t) (m, r)).1 =
      fun ℓ => if inPoly (T * opt) .acc z ℓ = true ∧ ℓ.2 % T = t then r ((ℓ.2 - z * (T * opt)) / T) else m ℓ := by
  obtain ⟨h1, h2, _⟩ := writes_solo opt .acc (fun i => z * (T * opt) + (t + i * T))
    (fun i j h => Nat.eq_of_mul_eq_mul_right (show 0 < T by omega) (by omega)) m r
  funext ℓ
  split_ifs with h
  · obtain ⟨i, hi, rfl⟩ := (inPoly_thread T opt z t ht .acc ℓ).1 h
    simp only
    rw [Nat.add_sub_cancel_left, Nat.add_mul_div_right _ _ (by omega), Nat.div_eq_of_lt ht, Nat.zero_add]
    exact h1 i hi
  · exact h2 ℓ fun i hi e => h ((inPoly_thread T opt z t ht .acc ℓ).2 ⟨i, hi, e⟩)

/-- The effect on the memory of a stretch whose threads write their own words of `D`. -/
theorem execPhase_mem {T : Nat} (hT : 0 < T) (D : Loc → Bool) (code : Fin T → List (Ins w)) (v : Loc → BitVec w)
    (m : Loc → BitVec w) (x : Fin T → Regs w)
    (h : ∀ t : Fin T, ∀ ℓ, D ℓ = true → ℓ.2 % T = t → (solo (code t) (m, x t)).1 ℓ = v ℓ) :
    (execPhase (m, x) (code, ownX T hT D)).1 = fun ℓ => if D ℓ = true then v ℓ else m ℓ := by
  funext ℓ
  simp only [execPhase, ownX]
  by_cases hd : D ℓ = true
  · simp only [hd, if_true]
    exact h _ ℓ hd rfl
  · simp only [hd]
    rfl

theorem ownX_some {T : Nat} {hT : 0 < T} {D : Loc → Bool} {ℓ : Loc} {t : Fin T} :
    ownX T hT D ℓ = some t ↔ D ℓ = true ∧ ℓ.2 % T = t := by
  unfold ownX
  split_ifs with h
  · simp [h, Fin.ext_iff]
  · simp [h]

theorem ownX_none {T : Nat} {hT : 0 < T} {D : Loc → Bool} {ℓ : Loc} (h : D ℓ = false) : ownX T hT D ℓ = none := by
  simp [ownX, h]

/-! The stretches with the words that they write, and what they do -/

section
variable (T opt : Nat) (hT : 0 < T)

abbrev Stretch (w T : Nat) := (Fin T → List (Ins w)) × (Loc → Option (Fin T))

def sRev (z : Nat) : Stretch w T := (fun t => xRev T opt z t, ownX T hT fun _ => false)
def sMul (z : Nat) : Stretch w T := (fun t => xMul T opt z t, ownX T hT fun _ => false)
def sWr (z : Nat) : Stretch w T := (fun t => xWr T opt z t, ownX T hT (inPoly (T * opt) .acc z))
def sNeg (z : Nat) : Stretch w T := (fun t => xNeg T opt z t, ownX T hT (inPoly (T * opt) .acc z))
def nextD (k z : Nat) (ℓ : Loc) : Bool :=
  if z < k then inPoly (T * opt) .acc z ℓ else decide (ℓ = (.out, k * (T * opt)))
def sCopy (k z : Nat) : Stretch w T :=
  (fun t => xCopy T opt z t ++ xNext T opt k (z + 1) t,
    ownX T hT fun ℓ => inPoly (T * opt) .out z ℓ || nextD T opt k (z + 1) ℓ)

theorem sRev_exec (z : Nat) (m : Loc → BitVec w) (x : Fin T → Regs w) :
    (execPhase (m, x) (sRev T opt hT z)).1 = m ∧
    ∀ t : Fin T, ∀ i, i < opt → (execPhase (m, x) (sRev T opt hT z)).2 t i =
      m (.acc, z * (T * opt) + (T * opt - (t + i * T) - 1)) := by
  refine ⟨funext fun ℓ => by simp [execPhase, sRev, ownX], fun t i hi => ?_⟩
  have := (reads_solo opt .acc (fun i => z * (T * opt) + (T * opt - (t + i * T) - 1)) m (x t)).2 i
  rw [if_pos hi] at this
  exact this

theorem sMul_exec (z : Nat) (m : Loc → BitVec w) (x : Fin T → Regs w) :
    (execPhase (m, x) (sMul T opt hT z)).1 = m ∧
    ∀ t : Fin T, ∀ i, i < opt → (execPhase (m, x) (sMul T opt hT z)).2 t i =
      if t + i * T < 1 then -m (.acc, z * (T * opt) + (t + i * T + T * opt - 1))
        else m (.acc, z * (T * opt) + (t + i * T - 1)) := by
  refine ⟨funext fun ℓ => by simp [execPhase, sMul, ownX], fun t i hi => ?_⟩
  have := (mul_solo T opt z t opt m (x t)).2 i
  rw [if_pos hi] at this
  exact this

theorem sWr_exec (z : Nat) (m : Loc → BitVec w) (x : Fin T → Regs w) :
    (execPhase (m, x) (sWr T opt hT z)).1 =
      fun ℓ => if inPoly (T * opt) .acc z ℓ = true then
        x ⟨ℓ.2 % T, Nat.mod_lt _ hT⟩ ((ℓ.2 - z * (T * opt)) / T) else m ℓ := by
  refine execPhase_mem hT _ _ (fun ℓ => x ⟨ℓ.2 % T, Nat.mod_lt _ hT⟩ ((ℓ.2 - z * (T * opt)) / T)) m x ?_
  intro t ℓ hd ht
  rw [xWr_mem T opt z t t.isLt]
  simp only [hd, ht, true_and, if_true]

theorem sNeg_exec (z : Nat) (m : Loc → BitVec w) (x : Fin T → Regs w) :
    (execPhase (m, x) (sNeg T opt hT z)).1 =
      fun ℓ => if inPoly (T * opt) .acc z ℓ = true then -m ℓ else m ℓ := by
  refine execPhase_mem hT _ _ (fun ℓ => -m ℓ) m x ?_
  intro t ℓ hd ht
  have := congrFun (move_mem T opt z t t.isLt .acc .acc (fun v => -v) m (x t)) ℓ
  refine this.trans ?_
  rw [if_pos ⟨hd, ht⟩]
  rw [← (inPoly_iff.1 hd).1]

theorem sCopy_exec (k z : Nat) (hz : z < k) (m : Loc → BitVec w) (x : Fin T → Regs w) :
    (execPhase (m, x) (sCopy T opt hT k z)).1 =
      fun ℓ => if inPoly (T * opt) .out z ℓ = true then m (.acc, ℓ.2)
        else if nextD T opt k (z + 1) ℓ = true then
          (if z + 1 < k then -m ℓ else m (.acc, k * (T * opt))) else m ℓ := by
  rw [show (fun ℓ => if inPoly (T * opt) .out z ℓ = true then m (.acc, ℓ.2)
        else if nextD T opt k (z + 1) ℓ = true then
          (if z + 1 < k then -m ℓ else m (.acc, k * (T * opt))) else m ℓ) =
      fun ℓ => if (inPoly (T * opt) .out z ℓ || nextD T opt k (z + 1) ℓ) = true then
        (if inPoly (T * opt) .out z ℓ = true then m (.acc, ℓ.2) else
          (if z + 1 < k then -m ℓ else m (.acc, k * (T * opt)))) else m ℓ from by
    funext ℓ
    by_cases h1 : inPoly (T * opt) .out z ℓ = true <;> by_cases h2 : nextD T opt k (z + 1) ℓ = true <;> simp [h1, h2]]
  refine execPhase_mem hT _ _ _ m x ?_
  intro t ℓ hd ht
  rw [solo_append]
  have hc := move_mem T opt z t t.isLt .acc .out (fun v => v) m (x t)
  change (solo (xCopy T opt z t) (m, x t)).1 = _ at hc
  generalize solo (xCopy T opt z t) (m, x t) = s at hc
  obtain ⟨m1, r1⟩ := s
  simp only at hc
  have hacc : ∀ q, m1 (.acc, q) = m (.acc, q) := fun q => by
    rw [hc]; simp [inPoly]
  have hout : inPoly (T * opt) .out z ℓ = true → m1 ℓ = m (.acc, ℓ.2) := fun h => by
    rw [hc]; simp [h, ht]
  unfold xNext nextD at *
  by_cases hk : z + 1 < k
  · simp only [hk, if_true] at hd ⊢
    have := congrFun (move_mem T opt (z + 1) t t.isLt .acc .acc (fun v => -v) m1 r1) ℓ
    refine this.trans ?_
    by_cases h1 : inPoly (T * opt) .out z ℓ = true
    · have h2 : ¬ inPoly (T * opt) .acc (z + 1) ℓ = true := by
        intro h2
        have := (inPoly_iff.1 h1).1.symm.trans (inPoly_iff.1 h2).1
        exact absurd this (by decide)
      simp only [h1, h2, if_true]
      exact hout h1
    · have h2 : inPoly (T * opt) .acc (z + 1) ℓ = true := by simpa [h1] using hd
      simp only [h1, h2, ht, true_and, if_true, hacc]
      rw [← (inPoly_iff.1 h2).1]
      rfl
  · simp only [hk, if_false] at hd ⊢
    unfold xBody
    by_cases h1 : inPoly (T * opt) .out z ℓ = true
    · have h2 : ℓ ≠ (.out, k * (T * opt)) := by
        rintro rfl
        have h3 := (inPoly_iff.1 h1).2.2
        have h4 : (z + 1) * (T * opt) ≤ k * (T * opt) := Nat.mul_le_mul_right _ hz
        rw [Nat.add_mul, Nat.one_mul] at h4
        simp only at h3
        omega
      simp only [h1, if_true]
      rw [← hout h1]
      split_ifs
      · simp [solo, rd, wr, Instr.run, Function.update, h2]
      · rfl
    · have h2 : ℓ = (.out, k * (T * opt)) := by simpa [h1] using hd
      have ht0 : (t : Nat) = 0 := by
        rw [← ht, h2]
        simp only
        rw [show k * (T * opt) = T * (k * opt) by ring, Nat.mul_mod_right]
      simp only [h1, ht0, if_true]
      rw [if_neg (by simp)]
      subst h2
      simp [solo, rd, wr, Instr.run, hacc]

theorem inPoly_split (z : Nat) {A : Arr} {ℓ : Loc} (h : inPoly (T * opt) A z ℓ = true) :
    (ℓ.2 - z * (T * opt)) / T < opt ∧ ℓ.2 % T + (ℓ.2 - z * (T * opt)) / T * T = ℓ.2 - z * (T * opt) ∧
    ℓ.2 = z * (T * opt) + (ℓ.2 - z * (T * opt)) ∧ ℓ.2 - z * (T * opt) < T * opt := by
  obtain ⟨_, h1, h2⟩ := inPoly_iff.1 h
  obtain ⟨c, hc⟩ := Nat.exists_eq_add_of_le h1
  obtain ⟨hi, hs⟩ := tid_split T opt c (by omega)
  have e : ℓ.2 - z * (T * opt) = c := by omega
  rw [e]
  have hm : ℓ.2 % T = c % T := by
    rw [hc, show z * (T * opt) + c = c + T * (z * opt) by ring, Nat.add_mul_mod_self_left]
  rw [hm]
  exact ⟨hi, hs.symm, hc, by omega⟩

/-- The reversal of a polynomial. -/
theorem rev_exec (z : Nat) (m : Loc → BitVec w) (x : Fin T → Regs w) :
    (execPhase (execPhase (m, x) (sRev T opt hT z)) (sWr T opt hT z)).1 =
      fun ℓ => if inPoly (T * opt) .acc z ℓ = true then
        m (.acc, z * (T * opt) + (T * opt - (ℓ.2 - z * (T * opt)) - 1)) else m ℓ := by
  obtain ⟨h1, h2⟩ := sRev_exec T opt hT z m x
  generalize execPhase (m, x) (sRev T opt hT z) = s at *
  obtain ⟨m1, x1⟩ := s
  simp only at h1 h2
  subst h1
  rw [sWr_exec]
  funext ℓ
  split_ifs with h
  · obtain ⟨hi, hs, _, _⟩ := inPoly_split T opt z h
    rw [h2 _ _ hi]
    simp only [hs]
  · rfl

/-- The multiplication of a polynomial by `X`. -/
theorem mulX_exec (z : Nat) (m : Loc → BitVec w) (x : Fin T → Regs w) :
    (execPhase (execPhase (m, x) (sMul T opt hT z)) (sWr T opt hT z)).1 =
      fun ℓ => if inPoly (T * opt) .acc z ℓ = true then
        (if ℓ.2 - z * (T * opt) < 1 then
          -m (.acc, z * (T * opt) + (ℓ.2 - z * (T * opt) + T * opt - 1))
          else m (.acc, z * (T * opt) + (ℓ.2 - z * (T * opt) - 1))) else m ℓ := by
  obtain ⟨h1, h2⟩ := sMul_exec T opt hT z m x
  generalize execPhase (m, x) (sMul T opt hT z) = s at *
  obtain ⟨m1, x1⟩ := s
  simp only at h1 h2
  subst h1
  rw [sWr_exec]
  funext ℓ
  by_cases h : inPoly (T * opt) .acc z ℓ = true
  · obtain ⟨hi, hs, _, _⟩ := inPoly_split T opt z h
    simp only [h, if_true]
    rw [h2 _ _ hi]
    simp only [hs]
  · simp only [h]
    rfl

/-- The stretches of the extraction of polynomial `z`, after the negation. -/
def sPoly (k z : Nat) : List (Stretch w T) :=
  [sRev T opt hT z, sWr T opt hT z, sMul T opt hT z, sWr T opt hT z, sCopy T opt hT k z]

theorem inPoly_at (N z c : Nat) (A : Arr) (hc : c < N) : inPoly N A z (A, z * N + c) = true :=
  inPoly_iff.2 ⟨rfl, by simp only; omega, by simp only; omega⟩

theorem sPoly_exec (k z : Nat) (hz : z < k) (m : Loc → BitVec w) (x : Fin T → Regs w) :
    let m' := ((sPoly T opt hT k z).foldl execPhase (m, x)).1
    (∀ c, c < T * opt → m' (.out, z * (T * opt) + c) =
      if c = 0 then -m (.acc, z * (T * opt)) else m (.acc, z * (T * opt) + (T * opt - c))) ∧
    (∀ q, q < z * (T * opt) → m' (.out, q) = m (.out, q)) ∧
    (∀ c, c < T * opt → z + 1 < k → m' (.acc, (z + 1) * (T * opt) + c) = -m (.acc, (z + 1) * (T * opt) + c)) ∧
    (∀ q, (z + 2) * (T * opt) ≤ q → z + 1 < k → m' (.acc, q) = m (.acc, q)) ∧
    (z + 1 = k → m' (.out, k * (T * opt)) = m (.acc, k * (T * opt))) := by
  intro m'
  obtain ⟨⟨m1, x1⟩, e1⟩ : ∃ s, execPhase (execPhase (m, x) (sRev T opt hT z)) (sWr T opt hT z) = s := ⟨_, rfl⟩
  obtain ⟨⟨m2, x2⟩, e2⟩ : ∃ s, execPhase (execPhase (m1, x1) (sMul T opt hT z)) (sWr T opt hT z) = s := ⟨_, rfl⟩
  have hm' : m' = (execPhase (m2, x2) (sCopy T opt hT k z)).1 := by
    simp only [m', sPoly, List.foldl_cons, List.foldl_nil, e1, e2]
  have h1 := rev_exec T opt hT z m x
  have h2 := mulX_exec T opt hT z m1 x1
  rw [e1] at h1
  rw [e2] at h2
  rw [sCopy_exec T opt hT k z hz] at hm'
  simp only at h1 h2
  have hz1 : z * (T * opt) + T * opt = (z + 1) * (T * opt) := by rw [Nat.add_mul, Nat.one_mul]
  have hz2 : (z + 1) * (T * opt) + T * opt = (z + 2) * (T * opt) := by ring
  have hk : (z + 1) * (T * opt) ≤ k * (T * opt) := Nat.mul_le_mul_right _ hz
  -- words of the accumulator outside polynomial `z`
  have keep : ∀ q, (z + 1) * (T * opt) ≤ q → m2 (.acc, q) = m (.acc, q) := by
    intro q hq
    have : ¬ inPoly (T * opt) .acc z (.acc, q) = true := by
      rw [inPoly_iff]; simp only; omega
    rw [h2]; simp only [this, h1]; rfl
  have keepo : ∀ q, m2 (.out, q) = m (.out, q) := by
    intro q
    have : ¬ inPoly (T * opt) .acc z (.out, q) = true := by simp [inPoly]
    rw [h2]; simp only [this, h1]; rfl
  have hext : ∀ c, c < T * opt → m2 (.acc, z * (T * opt) + c) =
      if c = 0 then -m (.acc, z * (T * opt)) else m (.acc, z * (T * opt) + (T * opt - c)) := by
    intro c hc
    rw [h2]
    simp only [inPoly_at (T * opt) z c .acc hc, if_true, Nat.add_sub_cancel_left]
    split_ifs with ha hb hb
    · subst hb
      rw [h1, show z * (T * opt) + (0 + T * opt - 1) = z * (T * opt) + (T * opt - 1) by omega]
      simp only [inPoly_at (T * opt) z (T * opt - 1) .acc (by omega), if_true, Nat.add_sub_cancel_left]
      rw [show T * opt - (T * opt - 1) - 1 = 0 by omega, Nat.add_zero]
    · omega
    · omega
    · rw [h1]
      simp only [inPoly_at (T * opt) z (c - 1) .acc (by omega), if_true, Nat.add_sub_cancel_left]
      rw [show T * opt - (c - 1) - 1 = T * opt - c by omega]
  refine ⟨fun c hc => ?_, fun q hq => ?_, fun c hc hlt => ?_, fun q hq hlt => ?_, fun he => ?_⟩
  · rw [hm']
    simp only [inPoly_at (T * opt) z c .out hc, if_true]
    exact hext c hc
  · rw [hm']
    have n1 : ¬ inPoly (T * opt) .out z (.out, q) = true := by rw [inPoly_iff]; simp only; omega
    have n2 : ¬ nextD T opt k (z + 1) (.out, q) = true := by
      unfold nextD
      split_ifs
      · simp [inPoly]
      · simp only [decide_eq_true_eq, Prod.mk.injEq, true_and]; omega
    simp only [n1, n2]
    exact keepo q
  · rw [hm']
    have n1 : ¬ inPoly (T * opt) .out z (.acc, (z + 1) * (T * opt) + c) = true := by simp [inPoly]
    have n2 : nextD T opt k (z + 1) (.acc, (z + 1) * (T * opt) + c) = true := by
      unfold nextD
      rw [if_pos hlt]
      exact inPoly_at _ _ _ _ hc
    simp only [n1, n2, hlt, if_true]
    rw [keep _ (by omega)]
    rfl
  · rw [hm']
    have n1 : ¬ inPoly (T * opt) .out z (.acc, q) = true := by simp [inPoly]
    have n2 : ¬ nextD T opt k (z + 1) (.acc, q) = true := by
      unfold nextD
      rw [if_pos hlt, inPoly_iff]
      simp only; omega
    simp only [n1, n2]
    exact keep q (by omega)
  · rw [hm']
    have n1 : ¬ inPoly (T * opt) .out z (.out, k * (T * opt)) = true := by rw [inPoly_iff]; simp only; omega
    have n2 : nextD T opt k (z + 1) (.out, k * (T * opt)) = true := by
      unfold nextD
      rw [if_neg (by omega)]
      simp
    have n3 : ¬ z + 1 < k := by omega
    simp only [n1, n2, n3, if_true]
    exact keep _ hk

/-- The stretches of the extraction of the last `n` of `k` polynomials, after the negation of the first of them. -/
def sFrom (k : Nat) : Nat → List (Stretch w T)
  | 0 => []
  | n + 1 => sPoly T opt hT k (k - (n + 1)) ++ sFrom k n

theorem sFrom_exec (k : Nat) (n : Nat) : ∀ (_ : n ≤ k) (m0 m : Loc → BitVec w) (x : Fin T → Regs w),
    (∀ z c, z < k - n → c < T * opt → m (.out, z * (T * opt) + c) =
      if c = 0 then m0 (.acc, z * (T * opt)) else -m0 (.acc, z * (T * opt) + (T * opt - c))) →
    (0 < n → ∀ c, c < T * opt → m (.acc, (k - n) * (T * opt) + c) = -m0 (.acc, (k - n) * (T * opt) + c)) →
    (0 < n → ∀ q, (k - n + 1) * (T * opt) ≤ q → m (.acc, q) = m0 (.acc, q)) →
    (n = 0 → m (.out, k * (T * opt)) = m0 (.acc, k * (T * opt))) →
    let m' := ((sFrom T opt hT k n).foldl execPhase (m, x)).1
    (∀ z c, z < k → c < T * opt → m' (.out, z * (T * opt) + c) =
      if c = 0 then m0 (.acc, z * (T * opt)) else -m0 (.acc, z * (T * opt) + (T * opt - c))) ∧
    m' (.out, k * (T * opt)) = m0 (.acc, k * (T * opt)) := by
  induction n with
  | zero =>
    intro _ m0 m x h1 _ _ h4 m'
    exact ⟨h1, h4 rfl⟩
  | succ n ih =>
    intro hn m0 m x h1 h2 h3 h4 m'
    have hm' : m' = ((sFrom T opt hT k n).foldl execPhase
        ((sPoly T opt hT k (k - (n + 1))).foldl execPhase (m, x))).1 := by
      simp only [m', sFrom, List.foldl_append]
    obtain ⟨g1, g2, g3, g4, g5⟩ := sPoly_exec T opt hT k (k - (n + 1)) (by omega) m x
    have ez : k - (n + 1) + 1 = k - n := by omega
    have ez2 : k - (n + 1) + 2 = k - n + 1 := by omega
    generalize (sPoly T opt hT k (k - (n + 1))).foldl execPhase (m, x) = s at *
    obtain ⟨m1, x1⟩ := s
    simp only at g1 g2 g3 g4 g5
    rw [hm']
    refine ih (by omega) m0 m1 x1 ?_ ?_ ?_ ?_
    · intro z c hz hc
      by_cases e : z = k - (n + 1)
      · subst e
        rw [g1 c hc]
        split_ifs with hc0
        · have := h2 (by omega) 0 (by omega)
          rw [Nat.add_zero] at this
          rw [this, neg_neg]
        · exact h2 (by omega) _ (by omega)
      · have hz' : z < k - (n + 1) := by omega
        rw [g2 _ (by
          have : (z + 1) * (T * opt) ≤ (k - (n + 1)) * (T * opt) := Nat.mul_le_mul_right _ hz'
          rw [Nat.add_mul, Nat.one_mul] at this
          omega)]
        exact h1 z c hz' hc
    · intro hpos c hc
      have := g3 c hc (by omega)
      rw [ez] at this
      rw [this, h3 (by omega) _ (by rw [ez]; omega)]
    · intro hpos q hq
      rw [g4 q (by rw [ez2]; exact hq) (by omega)]
      refine h3 (by omega) q ?_
      rw [ez]
      refine le_trans ?_ hq
      exact Nat.mul_le_mul_right _ (by omega)
    · intro h0
      rw [g5 (by omega)]
      refine h3 (by omega) _ ?_
      rw [ez]
      exact Nat.mul_le_mul_right _ (by omega)

theorem extractPolynomial_eq (z t : Nat) (c : Code w) : segments (extractPolynomial T opt z t ++ c) =
    xNeg T opt z t :: xRev T opt z t :: xWr T opt z t :: xMul T opt z t :: xWr T opt z t ::
      prepend (xCopy T opt z t) (segments c) := by
  simp only [extractPolynomial, List.append_assoc, List.cons_append, List.nil_append, segments_plain_sync]
  rw [segments_prepend]
  rfl

theorem segments_from (k t : Nat) (ht : t < T) (n : Nat) : ∀ (_ : n ≤ k),
    segments ((List.range' (k - n) n).flatMap (fun z => extractPolynomial T opt z t) ++ plain (xBody T opt k t)) =
      (xNext T opt k (k - n) t : List (Ins w)) :: (sFrom T opt hT k n).map fun p => p.1 ⟨t, ht⟩ := by
  induction n with
  | zero =>
    intro _
    simp only [List.range'_zero, List.flatMap_nil, List.nil_append, segments_plain, sFrom, List.map_nil, xNext,
      Nat.sub_zero, lt_irrefl, if_false]
  | succ n ih =>
    intro hn
    rw [List.range'_succ, List.flatMap_cons, List.append_assoc, extractPolynomial_eq,
      show k - (n + 1) + 1 = k - n by omega, ih (by omega)]
    have e : k - (n + 1) + 1 = k - n := by omega
    simp only [prepend, sFrom, sPoly, List.cons_append, List.nil_append, List.map_cons, sRev, sWr, sMul, sCopy, e]
    rw [show xNext T opt k (k - (n + 1)) t = (xNeg T opt (k - (n + 1)) t : List (Ins w)) from by
      rw [xNext, if_pos (by omega)]]

theorem segments_extract (k t : Nat) (ht : t < T) : segments (extractSample T opt k t) =
    (xNext T opt k 0 t : List (Ins w)) :: (sFrom T opt hT k k).map fun p => p.1 ⟨t, ht⟩ := by
  have := segments_from (w := w) T opt hT k t ht k le_rfl
  rw [Nat.sub_self] at this
  rw [← this, extractSample, extractMask, extractBody, List.range_eq_range', xBody]
  congr 2
  split_ifs <;> rfl

/-- No race in a loop that moves a polynomial. -/
theorem move_respects (z : Nat) (A A' : Arr) (g : BitVec w → BitVec w) (D : Loc → Bool)
    (hD : ∀ ℓ, inPoly (T * opt) A' z ℓ = true → D ℓ = true)
    (hA : A = A' ∨ ∀ ℓ, inPoly (T * opt) A z ℓ = true → D ℓ = false) (t : Fin T) (i : Ins w)
    (hi : i ∈ loop T opt t fun tid => [rd A (z * (T * opt) + tid) opt, wr A' (z * (T * opt) + tid) fun r => g (r opt)]) :
    Respects (ownX T hT D) t i := by
  obtain ⟨j, hj, hi⟩ := List.mem_flatMap.1 hi
  have hj := List.mem_range.1 hj
  have key : ∀ A : Arr, inPoly (T * opt) A z (A, z * (T * opt) + (t + j * T)) = true ∧
      (z * (T * opt) + (t + j * T)) % T = t := fun A =>
    (inPoly_thread T opt z t t.isLt A (A, z * (T * opt) + (t + j * T))).2 ⟨j, hj, rfl⟩
  simp only [List.mem_cons, List.not_mem_nil, or_false] at hi
  rcases hi with rfl | rfl
  · rcases hA with rfl | hA
    · exact .inl (ownX_some.2 ⟨hD _ (key A).1, (key A).2⟩)
    · exact .inr (ownX_none (hA _ (key A).1))
  · exact ownX_some.2 ⟨hD _ (key A').1, (key A').2⟩

theorem next_respects (k z : Nat) (D : Loc → Bool) (hD : ∀ ℓ, nextD T opt k z ℓ = true → D ℓ = true)
    (hA : D (.acc, k * (T * opt)) = false) (t : Fin T) (i : Ins w) (hi : i ∈ xNext T opt k z t) :
    Respects (ownX T hT D) t i := by
  unfold nextD at hD
  unfold xNext at hi
  split_ifs at hi with h
  · simp only [h, if_true] at hD
    exact move_respects T opt hT z .acc .acc _ D hD (.inl rfl) t i hi
  · simp only [h, if_false, decide_eq_true_eq] at hD
    unfold xBody at hi
    split_ifs at hi with ht
    · simp only [List.mem_cons, List.not_mem_nil, or_false] at hi
      rcases hi with rfl | rfl
      · exact .inr (ownX_none hA)
      · refine ownX_some.2 ⟨hD _ rfl, ?_⟩
        rw [ht]
        simp only
        rw [show k * (T * opt) = T * (k * opt) by ring, Nat.mul_mod_right]
    · exact absurd hi (by simp)

theorem sPoly_respects (k z : Nat) (hz : z < k) : ∀ p ∈ (sPoly T opt hT k z : List (Stretch w T)), ∀ t, ∀ i ∈ p.1 t,
    Respects p.2 t i := by
  have hz1 : z * (T * opt) + T * opt = (z + 1) * (T * opt) := by rw [Nat.add_mul, Nat.one_mul]
  have hk : (z + 1) * (T * opt) ≤ k * (T * opt) := Nat.mul_le_mul_right _ hz
  have hw : ∀ t, ∀ i ∈ (sWr T opt hT z : Stretch w T).1 t, Respects (sWr T opt hT z : Stretch w T).2 t i := by
    intro t i hi
    obtain ⟨j, hj, rfl⟩ := List.mem_map.1 hi
    exact (ownX_some (hT := hT)).2 ((inPoly_thread T opt z t t.isLt .acc _).2 ⟨j, List.mem_range.1 hj, rfl⟩)
  intro p hp t i hi
  simp only [sPoly, List.mem_cons, List.not_mem_nil, or_false] at hp
  rcases hp with rfl | rfl | rfl | rfl | rfl
  · obtain ⟨j, _, rfl⟩ := List.mem_map.1 hi
    exact .inr (ownX_none (hT := hT) (D := fun _ => false) (ℓ := (.acc, 0)) rfl)
  · exact hw t i hi
  · obtain ⟨j, _, hi⟩ := List.mem_flatMap.1 hi
    split_ifs at hi
    · simp only [List.mem_cons, List.not_mem_nil, or_false] at hi
      rcases hi with rfl | rfl
      · exact .inr (ownX_none (hT := hT) (D := fun _ => false) (ℓ := (.acc, 0)) rfl)
      · trivial
    · simp only [List.mem_cons, List.not_mem_nil, or_false] at hi
      subst hi
      exact .inr (ownX_none (hT := hT) (D := fun _ => false) (ℓ := (.acc, 0)) rfl)
  · exact hw t i hi
  · simp only [sCopy] at hi ⊢
    rcases List.mem_append.1 hi with hi | hi
    · refine move_respects T opt hT z .acc .out (fun v => v) _ (fun ℓ h => by simp [h]) (.inr fun ℓ h => ?_) t i hi
      obtain ⟨h0, h1, h2⟩ := inPoly_iff.1 h
      unfold nextD
      rw [Bool.or_eq_false_iff]
      refine ⟨by simp [inPoly, h0], ?_⟩
      split_ifs
      · rw [← Bool.not_eq_true, inPoly_iff]; omega
      · rw [decide_eq_false_iff_not]
        intro e
        rw [e] at h0
        cases h0
    · refine next_respects T opt hT k (z + 1) _ (fun ℓ h => by simp [h]) ?_ t i hi
      unfold nextD
      rw [Bool.or_eq_false_iff]
      refine ⟨by simp [inPoly], ?_⟩
      split_ifs with hlt
      · rw [← Bool.not_eq_true, inPoly_iff]
        have : (z + 2) * (T * opt) ≤ k * (T * opt) := Nat.mul_le_mul_right _ hlt
        have h2 : (z + 1) * (T * opt) + T * opt = (z + 2) * (T * opt) := by ring
        simp only; omega
      · simp

theorem sFrom_respects (k n : Nat) (hn : n ≤ k) : ∀ p ∈ (sFrom T opt hT k n : List (Stretch w T)), ∀ t, ∀ i ∈ p.1 t,
    Respects p.2 t i := by
  induction n with
  | zero => intro p hp; simp [sFrom] at hp
  | succ n ih =>
    intro p hp
    rcases List.mem_append.1 hp with hp | hp
    · exact sPoly_respects T opt hT k _ (by omega) p hp
    · exact ih (by omega) p hp

/-- The extraction, for any schedule of the threads. -/
theorem extract_run (hT : 0 < T) (k : Nat) (hk : 0 < k) (m : Loc → BitVec w) (x : Fin T → Regs w) (bs : List (Fin T))
    (hd : Done (program T (extractSample T opt k)) (run (program T (extractSample T opt k)) bs
      (start (program T (extractSample T opt k)) m x))) :
    let m' := (run (program T (extractSample T opt k)) bs (start (program T (extractSample T opt k)) m x)).mem
    (∀ z c, z < k → c < T * opt → m' (.out, z * (T * opt) + c) =
      if c = 0 then m (.acc, z * (T * opt)) else -m (.acc, z * (T * opt) + (T * opt - c))) ∧
    m' (.out, k * (T * opt)) = m (.acc, k * (T * opt)) := by
  intro m'
  have : Nonempty (Fin T) := ⟨⟨0, hT⟩⟩
  have h := run_exec ((sNeg T opt hT 0 : Stretch w T) :: sFrom T opt hT k k) (by
      intro p hp t i hi
      rcases List.mem_cons.1 hp with rfl | hp
      · exact move_respects T opt hT 0 .acc .acc (fun v => -v) _ (fun _ h => h) (.inl rfl) t i hi
      · exact sFrom_respects T opt hT k k le_rfl p hp t i hi)
    (program T (extractSample T opt k)) (by
      intro t
      rw [program, segments_extract T opt hT k t t.isLt, List.map_cons]
      congr 1
      rw [xNext, if_pos hk]
      rfl) m x bs hd
  have hn := sNeg_exec T opt hT 0 m x
  rw [List.foldl_cons] at h
  generalize execPhase (m, x) (sNeg T opt hT 0) = s at *
  obtain ⟨m1, x1⟩ := s
  simp only at hn
  have hm' : m' = ((sFrom T opt hT k k).foldl execPhase (m1, x1)).1 := h
  rw [hm']
  refine sFrom_exec T opt hT k k le_rfl m m1 x1 ?_ ?_ ?_ ?_
  · intro z c hz; omega
  · intro _ c hc
    rw [hn, Nat.sub_self]
    simp only [inPoly_at (T * opt) 0 c .acc hc, if_true]
  · intro _ q hq
    rw [Nat.sub_self] at hq
    rw [hn]
    have : ¬ inPoly (T * opt) .acc 0 (.acc, q) = true := by
      rw [inPoly_iff]; simp only; omega
    simp only [this]
    rfl
  · omega

end

end Verif.Cuda.Thr
