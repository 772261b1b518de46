import Verif.Cuda.Threads
import Verif.Cuda.BarrierLemmas
import Mathlib.Data.List.Nodup
import Mathlib.Tactic.Ring
/-
Lemmas on the threads of a block: the effect of a stretch of code without barriers, and of a sequence of such
stretches, under any schedule.
-/
namespace Verif.Cuda.Grid

variable {B Loc V L : Type} [DecidableEq B] [Fintype B] [DecidableEq Loc]

/-- The memory at the end of a run without races. -/
theorem run_mem [Nonempty B] (prog : B → Prog Loc V L) (own : Nat → Loc → Option B) (m : Loc → V) (x : B → L)
    (hrf : RaceFree prog own) (n : Nat) (hn : ∀ b, (prog b).length = n) (bs : List B)
    (hd : Done prog (run prog bs (start prog m x))) :
    (run prog bs (start prog m x)).mem = (after prog own m x n).1 := by
  have how : OneWriter prog own := fun b e ℓ f h => hrf b e _ h
  obtain ⟨E, h⟩ := run_inv prog own m x how bs _ 0 (calm_of_raceFree prog own hrf bs _ (start_partway prog m x))
    (start_inv prog own m x)
  generalize run prog bs (start prog m x) = s at *
  have he : ∀ b, (s.blk b).epoch + 1 = n := fun b => (hd b).1.trans (hn b)
  obtain ⟨b0⟩ := ‹Nonempty B›
  funext ℓ
  rcases h.level b0 with h1 | ⟨h1, _⟩
  · have hE : E + 1 = n := by rw [← h1]; exact he b0
    rw [← hE]
    simp only [after]
    cases ho : own E ℓ with
    | none => exact h.mem ℓ (fun b hb => by rw [ho] at hb; cases hb)
    | some b =>
      obtain ⟨past, hp, _, hm, _⟩ := h.state b
      have hb : (s.blk b).epoch = E := by have := he b; omega
      rw [(hd b).2, List.append_nil, hb] at hp
      rw [hm hb ℓ ho, hp]
  · have hE : E = n := by rw [← h1]; exact he b0
    rw [← hE]
    refine h.mem ℓ fun b _ => ?_
    have := he b
    omega

/-- A program can be run to its end. -/
theorem can_finish (prog : B → Prog Loc V L) (n : Nat) (hn : ∀ b, (prog b).length = n) (h0 : 0 < n) (m : Loc → V)
    (x : B → L) (as : List B) : ∃ bs, Done prog (run prog (as ++ bs) (start prog m x)) := by
  obtain ⟨E, h⟩ := run_follows prog as _ 0 (start_follows prog (fun b hb => by
    have := hn b; rw [hb] at this; simp at this; omega) m x)
  obtain ⟨bs, hbs⟩ := run_finishes prog n hn _ _ E h le_rfl
  exact ⟨bs, by rw [run_append]; exact hbs⟩

/-- The code of a thread over a list of cells that do not interfere. `W i` are the places that cell `i` writes. -/
theorem solo_cells {ι : Type} (f : ι → List (Instr Loc V L)) (W : ι → Loc → Prop) (val : Loc → (Loc → V) → V) :
    ∀ (is : List ι), is.Nodup →
    (∀ i ∈ is, ∀ m r ℓ, (W i ℓ → (solo (f i) (m, r)).1 ℓ = val ℓ m) ∧ (¬ W i ℓ → (solo (f i) (m, r)).1 ℓ = m ℓ)) →
    (∀ i ∈ is, ∀ ℓ, W i ℓ → ∀ m m' : Loc → V, (∀ ℓ', (∀ j ∈ is, W j ℓ' → j = i) → m ℓ' = m' ℓ') →
      val ℓ m = val ℓ m') →
    (∀ i ∈ is, ∀ j ∈ is, ∀ ℓ, W i ℓ → W j ℓ → i = j) →
    ∀ m r ℓ, (∀ i ∈ is, W i ℓ → (solo (is.flatMap f) (m, r)).1 ℓ = val ℓ m) ∧
      ((∀ i ∈ is, ¬ W i ℓ) → (solo (is.flatMap f) (m, r)).1 ℓ = m ℓ) := by
  intro is
  induction is with
  | nil =>
    intro _ _ _ _ m r ℓ
    exact ⟨fun i hi => by simp at hi, fun _ => rfl⟩
  | cons i is ih =>
    intro hn hf hv hd m r ℓ
    obtain ⟨hi, hn'⟩ := List.nodup_cons.1 hn
    have ih' := ih hn' (fun j hj => hf j (List.mem_cons_of_mem _ hj))
      (fun j hj ℓ hW m m' h => hv j (List.mem_cons_of_mem _ hj) ℓ hW m m' fun ℓ' h' =>
        h ℓ' fun q hq hWq => h' q (List.mem_cons_of_mem _ hq) hWq)
      (fun a ha c hc => hd a (List.mem_cons_of_mem _ ha) c (List.mem_cons_of_mem _ hc))
    rw [List.flatMap_cons, solo_append]
    have h1 := hf i List.mem_cons_self m r
    generalize solo (f i) (m, r) = q at *
    obtain ⟨m1, r1⟩ := q
    have h2 := ih' m1 r1 ℓ
    constructor
    · intro j hj hW
      rcases List.mem_cons.1 hj with rfl | hj'
      · rw [h2.2 fun c hc hWc => hi ((hd j List.mem_cons_self c (List.mem_cons_of_mem _ hc) ℓ hW hWc) ▸ hc)]
        exact (h1 ℓ).1 hW
      · rw [h2.1 j hj' hW]
        apply hv j hj ℓ hW
        intro ℓ' h'
        refine (h1 ℓ').2 fun hWi => hi ?_
        rw [h' i List.mem_cons_self hWi]
        exact hj'
    · intro h
      rw [h2.2 fun c hc => h c (List.mem_cons_of_mem _ hc)]
      exact (h1 ℓ).2 (h i List.mem_cons_self)

/-- A stretch of code of all the threads between two barriers: the places written have one owner each, and the owner
leaves in place `ℓ` the value `val ℓ m` computed from the memory `m` at the beginning. -/
structure Phase (code : B → List (Instr Loc V L)) (own : Loc → Option B) (val : Loc → (Loc → V) → V) : Prop where
  respects : ∀ b, ∀ i ∈ code b, Respects own b i
  value : ∀ b m r ℓ, own ℓ = some b → (solo (code b) (m, r)).1 ℓ = val ℓ m

/-- The effect of a phase on the memory. -/
def Phase.effect (own : Loc → Option B) (val : Loc → (Loc → V) → V) (m : Loc → V) : Loc → V :=
  fun ℓ => if (own ℓ).isSome then val ℓ m else m ℓ

/-- Any run to the end of a sequence of phases separated by barriers has the effects of the phases one after the
other. -/
theorem run_phases [Nonempty B] (ps : List ((B → List (Instr Loc V L)) × (Loc → Option B) × (Loc → (Loc → V) → V)))
    (hps : ∀ p ∈ ps, Phase p.1 p.2.1 p.2.2) (prog : B → Prog Loc V L)
    (hprog : ∀ b, prog b = ps.map fun p => p.1 b) (m : Loc → V) (x : B → L) (bs : List B)
    (hd : Done prog (run prog bs (start prog m x))) :
    (run prog bs (start prog m x)).mem = ps.foldl (fun m p => Phase.effect p.2.1 p.2.2 m) m := by
  let own : Nat → Loc → Option B := fun e => ((ps[e]?).map fun p => p.2.1).getD fun _ => none
  have hseg : ∀ b e, seg prog b e = ((ps[e]?).map fun p => p.1 b).getD [] := by
    intro b e
    rw [seg, hprog, List.getElem?_map]
  have hrf : RaceFree prog own := by
    intro b e i hi
    rw [hseg] at hi
    cases h : ps[e]? with
    | none => simp [h] at hi
    | some p =>
      simp only [h, Option.map_some, Option.getD_some] at hi
      simp only [own, h, Option.map_some, Option.getD_some]
      exact (hps p (List.mem_of_getElem? h)).respects b i hi
  rw [run_mem prog own m x hrf ps.length (fun b => by rw [hprog, List.length_map]) bs hd]
  have key : ∀ n, n ≤ ps.length → (after prog own m x n).1 =
      (ps.take n).foldl (fun m p => Phase.effect p.2.1 p.2.2 m) m := by
    intro n
    induction n with
    | zero => intro _; rfl
    | succ n ih =>
      intro hn
      have hp : ps[n]? = some ps[n] := List.getElem?_eq_getElem (by omega)
      rw [List.take_add_one, hp, Option.toList_some, List.foldl_append, ← ih (by omega)]
      simp only [List.foldl_cons, List.foldl_nil, after]
      funext ℓ
      have hown : own n = ps[n].2.1 := by simp only [own, hp, Option.map_some, Option.getD_some]
      rw [hown, Phase.effect]
      cases ho : ps[n].2.1 ℓ with
      | none => simp
      | some b =>
        simp only [Option.isSome_some, if_true]
        have : seg prog b n = ps[n].1 b := by rw [hseg, hp, Option.map_some, Option.getD_some]
        rw [this]
        exact (hps ps[n] (List.getElem_mem _)).value b _ _ ℓ ho
  rw [key ps.length le_rfl, List.take_length]

/-- The effect of a stretch of code between two barriers on the memory and the registers. -/
def execPhase (s : (Loc → V) × (B → L)) (p : (B → List (Instr Loc V L)) × (Loc → Option B)) : (Loc → V) × (B → L) :=
  (fun ℓ => match p.2 ℓ with
    | some b => (solo (p.1 b) (s.1, s.2 b)).1 ℓ
    | none => s.1 ℓ,
   fun b => (solo (p.1 b) (s.1, s.2 b)).2)

/-- Any run to the end of stretches without races has the effect of the stretches one after the other. -/
theorem run_exec [Nonempty B] (ps : List ((B → List (Instr Loc V L)) × (Loc → Option B)))
    (hps : ∀ p ∈ ps, ∀ b, ∀ i ∈ p.1 b, Respects p.2 b i) (prog : B → Prog Loc V L)
    (hprog : ∀ b, prog b = ps.map fun p => p.1 b) (m : Loc → V) (x : B → L) (bs : List B)
    (hd : Done prog (run prog bs (start prog m x))) :
    (run prog bs (start prog m x)).mem = (ps.foldl execPhase (m, x)).1 := by
  let own : Nat → Loc → Option B := fun e => ((ps[e]?).map fun p => p.2).getD fun _ => none
  have hseg : ∀ b e, seg prog b e = ((ps[e]?).map fun p => p.1 b).getD [] := by
    intro b e
    rw [seg, hprog, List.getElem?_map]
  have hrf : RaceFree prog own := by
    intro b e i hi
    rw [hseg] at hi
    cases h : ps[e]? with
    | none => simp [h] at hi
    | some p =>
      simp only [h, Option.map_some, Option.getD_some] at hi
      simp only [own, h, Option.map_some, Option.getD_some]
      exact hps p (List.mem_of_getElem? h) b i hi
  rw [run_mem prog own m x hrf ps.length (fun b => by rw [hprog, List.length_map]) bs hd]
  have key : ∀ n, n ≤ ps.length → after prog own m x n = (ps.take n).foldl execPhase (m, x) := by
    intro n
    induction n with
    | zero => intro _; rfl
    | succ n ih =>
      intro hn
      have hp : ps[n]? = some ps[n] := List.getElem?_eq_getElem (by omega)
      rw [List.take_add_one, hp, Option.toList_some, List.foldl_append, ← ih (by omega)]
      have hown : own n = ps[n].2 := by simp only [own, hp, Option.map_some, Option.getD_some]
      have hs : ∀ b, seg prog b n = ps[n].1 b := fun b => by rw [hseg, hp, Option.map_some, Option.getD_some]
      simp only [List.foldl_cons, List.foldl_nil, after, execPhase, hown, hs]
      refine Prod.ext (funext fun ℓ => ?_) rfl
      cases ps[n].2 ℓ <;> rfl
  rw [key ps.length le_rfl, List.take_length]

/-- A phase after another without a barrier, when the second reads and writes only what its owner wrote. -/
theorem Phase.append {c1 c2 : B → List (Instr Loc V L)} {own : Loc → Option B} {v1 v2 : Loc → (Loc → V) → V}
    (h1 : Phase c1 own v1) (h2 : Phase c2 own v2)
    (hl : ∀ ℓ m m', (own ℓ).isSome → m ℓ = m' ℓ → v2 ℓ m = v2 ℓ m') :
    Phase (fun b => c1 b ++ c2 b) own (fun ℓ m => v2 ℓ (Phase.effect own v1 m)) := by
  refine ⟨fun b i hi => ?_, fun b m r ℓ ho => ?_⟩
  · rcases List.mem_append.1 hi with hi | hi
    · exact h1.respects b i hi
    · exact h2.respects b i hi
  · rw [solo_append, h2.value b _ _ ℓ ho]
    apply hl ℓ _ _ (by rw [ho]; rfl)
    rw [h1.value b m r ℓ ho, Phase.effect, ho]
    rfl

end Verif.Cuda.Grid

namespace Verif.Cuda.Thr
open Grid

variable {w : Nat}

theorem segments_plain (a : List (Ins w)) : segments (plain a) = [a] := by
  induction a with
  | nil => rfl
  | cons i a ih =>
    rw [plain] at ih ⊢
    rw [List.map_cons, segments, ih]

theorem segments_plain_sync (a : List (Ins w)) (c : Code w) :
    segments (plain a ++ .sync :: c) = a :: segments c := by
  induction a with
  | nil => rfl
  | cons i a ih =>
    rw [plain] at ih ⊢
    rw [List.map_cons, List.cons_append, segments, ih]

/-- The coefficients of a thread. -/
def mine (T opt np t : Nat) : List (Nat × Nat) :=
  (List.range np).flatMap fun z => (List.range opt).map fun i => (z, t + i * T)

theorem mem_mine (T opt np t : Nat) (p : Nat × Nat) :
    p ∈ mine T opt np t ↔ p.1 < np ∧ ∃ i, i < opt ∧ p.2 = t + i * T := by
  obtain ⟨a, c⟩ := p
  simp only [mine, List.mem_flatMap, List.mem_range, List.mem_map, Prod.mk.injEq]
  constructor
  · rintro ⟨z, hz, i, hi, rfl, rfl⟩; exact ⟨hz, i, hi, rfl⟩
  · rintro ⟨hz, i, hi, rfl⟩; exact ⟨a, hz, i, hi, rfl, rfl⟩

theorem mine_nodup (T opt np t : Nat) (hT : 0 < T) : (mine T opt np t).Nodup := by
  rw [mine, List.nodup_flatMap]
  constructor
  · intro z _
    refine List.Nodup.map ?_ List.nodup_range
    intro i j h
    simp only [Prod.mk.injEq, true_and, Nat.add_left_cancel_iff] at h
    exact Nat.eq_of_mul_eq_mul_right hT h
  · refine List.Pairwise.imp ?_ List.nodup_range
    intro a c hac p hp hq
    simp only [List.mem_map] at hp hq
    obtain ⟨_, _, rfl⟩ := hp
    obtain ⟨_, _, h⟩ := hq
    exact hac (Prod.mk.inj h).1.symm

theorem loops_mine (T opt np t : Nat) (f : Nat → Nat → List (Ins w)) :
    loops T opt np t f = (mine T opt np t).flatMap fun p => f p.1 p.2 := by
  simp [loops, loop, mine, List.flatMap_assoc, List.flatMap_map]

/-- The owner of a word of an array that is worked on coefficient by coefficient. -/
def ownOf (T n : Nat) (hT : 0 < T) (A : Arr) (ℓ : Loc) : Option (Fin T) :=
  if ℓ.1 = A ∧ ℓ.2 < n then some ⟨ℓ.2 % T, Nat.mod_lt _ hT⟩ else none

theorem ownOf_isSome {T n : Nat} {hT : 0 < T} {A : Arr} {ℓ : Loc} :
    (ownOf T n hT A ℓ).isSome = true ↔ ℓ.1 = A ∧ ℓ.2 < n := by
  rw [ownOf]; split <;> simp_all

theorem ownOf_some {T n : Nat} {hT : 0 < T} {A : Arr} {ℓ : Loc} {t : Fin T} :
    ownOf T n hT A ℓ = some t ↔ (ℓ.1 = A ∧ ℓ.2 < n) ∧ ℓ.2 % T = t := by
  rw [ownOf]
  split
  · rename_i h
    simp only [h, and_self, true_and, Option.some.injEq]
    constructor
    · rintro rfl; rfl
    · intro h; exact Fin.ext h
  · rename_i h
    simp only [reduceCtorEq, false_iff]
    exact fun h' => h h'.1

/-- The word of coefficient `tid` of polynomial `z`, and back. -/
theorem word_iff (T opt np t : Nat) (ht : t < T) (q : Nat) :
    (q < np * (T * opt) ∧ q % T = t) ↔ ∃ p ∈ mine T opt np t, q = p.1 * (T * opt) + p.2 := by
  have hT : 0 < T := by omega
  constructor
  · rintro ⟨hq, hm⟩
    have hN : 0 < T * opt := by
      rcases Nat.eq_zero_or_pos (T * opt) with h | h
      · rw [h] at hq; omega
      · exact h
    refine ⟨(q / (T * opt), q % (T * opt)), ?_, by rw [Nat.mul_comm]; exact (Nat.div_add_mod _ _).symm⟩
    rw [mem_mine]
    refine ⟨Nat.div_lt_of_lt_mul (by rw [Nat.mul_comm]; exact hq), q % (T * opt) / T, ?_, ?_⟩
    · exact Nat.div_lt_of_lt_mul (Nat.mod_lt _ hN)
    · have h1 : q % (T * opt) % T = t := by rw [Nat.mod_mul_right_mod, hm]
      have h2 := Nat.div_add_mod (q % (T * opt)) T
      show q % (T * opt) = _
      rw [h1, Nat.mul_comm] at h2
      omega
  · rintro ⟨p, hp, rfl⟩
    obtain ⟨h1, i, hi, h2⟩ := (mem_mine T opt np t p).1 hp
    have hlt : p.2 < T * opt := by
      rw [h2]
      have : (i + 1) * T ≤ opt * T := Nat.mul_le_mul_right _ hi
      rw [Nat.add_mul, Nat.one_mul] at this
      rw [Nat.mul_comm T opt]; omega
    constructor
    · have : (p.1 + 1) * (T * opt) ≤ np * (T * opt) := Nat.mul_le_mul_right _ h1
      rw [Nat.add_mul, Nat.one_mul] at this
      omega
    · rw [h2, show p.1 * (T * opt) + (t + i * T) = t + T * (p.1 * opt + i) by ring, Nat.add_mul_mod_self_left,
        Nat.mod_eq_of_lt ht]

theorem mine_lt (T opt np t : Nat) (ht : t < T) (p : Nat × Nat) (hp : p ∈ mine T opt np t) :
    p.1 < np ∧ p.2 < T * opt := by
  obtain ⟨h1, i, hi, h2⟩ := (mem_mine T opt np t p).1 hp
  refine ⟨h1, ?_⟩
  rw [h2]
  have : (i + 1) * T ≤ opt * T := Nat.mul_le_mul_right _ hi
  rw [Nat.add_mul, Nat.one_mul] at this
  rw [Nat.mul_comm T opt]; omega

theorem word_inj {N z c z' c' : Nat} (hc : c < N) (hc' : c' < N) (h : z * N + c = z' * N + c') : z = z' ∧ c = c' := by
  have h1 : (z * N + c) / N = z := by
    rw [Nat.mul_comm, Nat.mul_add_div (by omega), Nat.div_eq_of_lt hc, Nat.add_zero]
  have h2 : (z' * N + c') / N = z' := by
    rw [Nat.mul_comm, Nat.mul_add_div (by omega), Nat.div_eq_of_lt hc', Nat.add_zero]
  have : z = z' := by rw [← h1, h, h2]
  subst this
  exact ⟨rfl, by omega⟩

/-- A loop over the coefficients of array `A` in which a coefficient is written from itself and from arrays that
are not written. -/
theorem phase_loops (T opt np : Nat) (hT : 0 < T) (A : Arr) (f : Nat → Nat → List (Ins w))
    (val : Nat → Nat → (Loc → BitVec w) → BitVec w)
    (hr : ∀ z c, z < np → c < T * opt → ∀ i ∈ f z c, match i with
      | .comp _ => True
      | .read ℓ _ => ℓ = (A, z * (T * opt) + c) ∨ ℓ.1 ≠ A
      | .write ℓ _ => ℓ = (A, z * (T * opt) + c))
    (hf : ∀ z c, z < np → c < T * opt → ∀ m r, (solo (f z c) (m, r)).1 (A, z * (T * opt) + c) = val z c m)
    (hv : ∀ z c, z < np → c < T * opt → ∀ m m' : Loc → BitVec w,
      (∀ ℓ : Loc, ℓ = (A, z * (T * opt) + c) ∨ ℓ.1 ≠ A → m ℓ = m' ℓ) → val z c m = val z c m') :
    Phase (fun t : Fin T => loops T opt np t f) (ownOf T (np * (T * opt)) hT A)
      (fun ℓ m => val (ℓ.2 / (T * opt)) (ℓ.2 % (T * opt)) m) := by
  refine ⟨fun t i hi => ?_, fun t m r ℓ ho => ?_⟩
  · rw [loops_mine] at hi
    obtain ⟨p, hp, hi⟩ := List.mem_flatMap.1 hi
    obtain ⟨h1, h2⟩ := mine_lt T opt np t t.isLt p hp
    have hw := (word_iff T opt np t t.isLt _).2 ⟨p, hp, rfl⟩
    have := hr p.1 p.2 h1 h2 i hi
    cases i with
    | comp _ => trivial
    | read ℓ _ =>
      rcases this with rfl | h
      · exact .inl (ownOf_some.2 ⟨⟨rfl, hw.1⟩, hw.2⟩)
      · exact .inr (by rw [ownOf, if_neg (fun h' => h h'.1)])
    | write ℓ _ =>
      simp only at this
      subst this
      exact ownOf_some.2 ⟨⟨rfl, hw.1⟩, hw.2⟩
  · obtain ⟨⟨ha, hn⟩, hm⟩ := ownOf_some.1 ho
    obtain ⟨p, hp, hq⟩ := (word_iff T opt np t t.isLt _).1 ⟨hn, hm⟩
    obtain ⟨h1, h2⟩ := mine_lt T opt np t t.isLt p hp
    rw [loops_mine]
    have hℓ : ℓ = (A, p.1 * (T * opt) + p.2) := Prod.ext ha hq
    have hval : ∀ z c, c < T * opt → (z * (T * opt) + c) / (T * opt) = z ∧ (z * (T * opt) + c) % (T * opt) = c := by
      intro z c hc
      refine ⟨?_, ?_⟩
      · rw [Nat.mul_comm, Nat.mul_add_div (by omega), Nat.div_eq_of_lt hc, Nat.add_zero]
      · rw [Nat.mul_comm, Nat.mul_add_mod, Nat.mod_eq_of_lt hc]
    refine (solo_cells (fun p => f p.1 p.2) (fun p ℓ => ℓ = (A, p.1 * (T * opt) + p.2))
      (fun ℓ m => val (ℓ.2 / (T * opt)) (ℓ.2 % (T * opt)) m) (mine T opt np t) (mine_nodup T opt np t hT)
      ?_ ?_ ?_ m r ℓ).1 p hp hℓ
    · intro p hp m r ℓ
      obtain ⟨h1, h2⟩ := mine_lt T opt np t t.isLt p hp
      constructor
      · rintro rfl
        rw [hf p.1 p.2 h1 h2]
        simp only [hval p.1 p.2 h2]
      · intro h
        refine solo_other _ ℓ (fun g hg => ?_) _
        exact h (hr p.1 p.2 h1 h2 _ hg)
    · rintro p hp ℓ rfl m m' h
      obtain ⟨h1, h2⟩ := mine_lt T opt np t t.isLt p hp
      simp only [hval p.1 p.2 h2]
      refine hv p.1 p.2 h1 h2 m m' fun ℓ' h' => h ℓ' fun q hq hWq => ?_
      obtain ⟨h3, h4⟩ := mine_lt T opt np t t.isLt q hq
      rcases h' with rfl | h'
      · have := word_inj h2 h4 (Prod.mk.inj hWq).2
        exact Prod.ext this.1.symm this.2.symm
      · subst hWq; exact absurd rfl h'
    · rintro p hp q hq ℓ rfl h
      obtain ⟨_, h2⟩ := mine_lt T opt np t t.isLt p hp
      obtain ⟨_, h4⟩ := mine_lt T opt np t t.isLt q hq
      have := word_inj h2 h4 (Prod.mk.inj h).2
      exact Prod.ext this.1 this.2

end Verif.Cuda.Thr
