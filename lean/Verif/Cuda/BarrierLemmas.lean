import Verif.Cuda.Barrier
import Mathlib.Algebra.Order.BigOperators.Group.Finset
/-
Lemmas on cooperative launches: if between two barriers every place is written by one block only, then every schedule
in which the other blocks read the place before it is written gives the result of running the blocks one after the
other on the memory of the last barrier; if the other blocks do not read it, every schedule does. No schedule blocks.
-/
set_option linter.unusedSectionVars false

namespace Verif.Cuda.Grid

variable {B Loc V L : Type} [DecidableEq B] [Fintype B] [DecidableEq Loc]

/-- A block alone runs a list of instructions. -/
def solo (is : List (Instr Loc V L)) (x : (Loc → V) × L) : (Loc → V) × L := is.foldl (fun x i => i.run x) x

theorem solo_append (a b : List (Instr Loc V L)) (x : (Loc → V) × L) : solo (a ++ b) x = solo b (solo a x) := by
  simp [solo, List.foldl_append]

/-- The instructions of block `b` between barriers `e` and `e + 1`. -/
def seg (prog : B → Prog Loc V L) (b : B) (e : Nat) : List (Instr Loc V L) := ((prog b)[e]?).getD []

/-- The instruction respects the owners of the places: it writes only to places that `b` owns and reads only
places that no other block owns. -/
def Respects (own : Loc → Option B) (b : B) : Instr Loc V L → Prop
  | .comp _ => True
  | .read ℓ _ => own ℓ = some b ∨ own ℓ = none
  | .write ℓ _ => own ℓ = some b

/-- No two blocks access the same place between two barriers, one of them writing: in every such interval the
places written have one owner, and the other blocks do not access them. -/
def RaceFree (prog : B → Prog Loc V L) (own : Nat → Loc → Option B) : Prop :=
  ∀ b e i, i ∈ seg prog b e → Respects (own e) b i

/-- Between two barriers a place is written by its owner only. -/
def OneWriter (prog : B → Prog Loc V L) (own : Nat → Loc → Option B) : Prop :=
  ∀ b e ℓ f, Instr.write ℓ f ∈ seg prog b e → own e ℓ = some b

/-- The common memory and the states of the blocks when all have arrived at the start of interval `e`. -/
def after (prog : B → Prog Loc V L) (own : Nat → Loc → Option B) (m : Loc → V) (x : B → L) :
    Nat → (Loc → V) × (B → L)
  | 0 => (m, x)
  | e + 1 =>
    let p := after prog own m x e
    (fun ℓ => match own e ℓ with
      | some b => (solo (seg prog b e) (p.1, p.2 b)).1 ℓ
      | none => p.1 ℓ,
     fun b => (solo (seg prog b e) (p.1, p.2 b)).2)

theorem after_mem (prog : B → Prog Loc V L) (own : Nat → Loc → Option B) (m : Loc → V) (x : B → L) (e : Nat)
    (ℓ : Loc) (b : B) (h : own e ℓ = some b) :
    (after prog own m x (e + 1)).1 ℓ =
      (solo (seg prog b e) ((after prog own m x e).1, (after prog own m x e).2 b)).1 ℓ := by
  simp only [after]
  rw [h]

theorem solo_other (is : List (Instr Loc V L)) (ℓ : Loc) (h : ∀ f, Instr.write ℓ f ∉ is) :
    ∀ x, (solo is x).1 ℓ = x.1 ℓ := by
  induction is with
  | nil => intro x; rfl
  | cons i is ih =>
    intro x
    rw [show solo (i :: is) x = solo is (i.run x) from rfl, ih (fun f hf => h f (List.mem_cons_of_mem _ hf))]
    cases i with
    | comp f => rfl
    | read l f => rfl
    | write l f =>
      have : ℓ ≠ l := by rintro rfl; exact h f List.mem_cons_self
      simp [Instr.run, Function.update_of_ne this]

/-- What holds during a run, `E` being the highest number of barriers passed by a block. -/
structure Inv (prog : B → Prog Loc V L) (own : Nat → Loc → Option B) (m : Loc → V) (x : B → L) (E : Nat)
    (s : State B Loc V L) : Prop where
  level : ∀ b, (s.blk b).epoch = E ∨ ((s.blk b).epoch + 1 = E ∧ (s.blk b).rest = [])
  within : ∀ b, (s.blk b).epoch < (prog b).length ∨ ((s.blk b).epoch = 0 ∧ prog b = [])
  state : ∀ b, ∃ past, past ++ (s.blk b).rest = seg prog b (s.blk b).epoch ∧
    (s.blk b).own = (solo past ((after prog own m x (s.blk b).epoch).1,
      (after prog own m x (s.blk b).epoch).2 b)).2 ∧
    ((s.blk b).epoch = E → ∀ ℓ, own E ℓ = some b → s.mem ℓ =
      (solo past ((after prog own m x E).1, (after prog own m x E).2 b)).1 ℓ) ∧
    ((s.blk b).epoch = E → ∀ ℓ f, Instr.write ℓ f ∈ past → ∀ c, c ≠ b → pending prog s E c ℓ = false)
  mem : ∀ ℓ, (∀ b, own E ℓ = some b → (s.blk b).epoch ≠ E) → s.mem ℓ = (after prog own m x E).1 ℓ

theorem start_inv (prog : B → Prog Loc V L) (own : Nat → Loc → Option B) (m : Loc → V) (x : B → L) :
    Inv prog own m x 0 (start prog m x) := by
  refine ⟨fun b => .inl rfl, fun b => ?_, fun b => ⟨[], ?_, rfl, fun _ ℓ _ => rfl, fun _ ℓ f h => absurd h (by simp)⟩, fun ℓ _ => rfl⟩
  · cases h : prog b with
    | nil => exact .inr ⟨rfl, rfl⟩
    | cons a t => exact .inl (by simp [start])
  · cases h : prog b <;> simp [start, seg, h]

theorem arrived_iff (s : State B Loc V L) (e : Nat) (b : B) :
    arrived s e b = true ↔ e < (s.blk b).epoch ∨ ((s.blk b).epoch = e ∧ (s.blk b).rest = []) := by
  simp [arrived]

theorem step_inv (prog : B → Prog Loc V L) (own : Nat → Loc → Option B) (m : Loc → V) (x : B → L)
    (how : OneWriter prog own) (E : Nat) (s : State B Loc V L) (h : Inv prog own m x E s) (b : B)
    (hc : ∀ ℓ, nextWrite s b = some ℓ → ∀ c, c ≠ b → pending prog s (s.blk b).epoch c ℓ = false) :
    ∃ E', Inv prog own m x E' (step prog s b) := by
  obtain ⟨past, hp, hl, hm, hw⟩ := h.state b
  cases hr : (s.blk b).rest with
  | cons i rest =>
    have hE : (s.blk b).epoch = E := by
      rcases h.level b with h1 | ⟨_, h1⟩
      · exact h1
      · rw [hr] at h1; exact absurd h1 (by simp)
    rw [hE] at hp hl
    have hm := hm hE
    have hi : ∀ ℓ f, i = .write ℓ f → own E ℓ = some b := fun ℓ f e =>
      how b E ℓ f (by rw [← hp, hr, e]; simp)
    have hpast : ∀ ℓ f, Instr.write ℓ f ∈ past → own E ℓ = some b := fun ℓ f hj =>
      how b E ℓ f (by rw [← hp]; simp [hj])
    set A := after prog own m x E with hA
    set q := solo past (A.1, A.2 b) with hq
    have hstep : step prog s b = ⟨(i.run (s.mem, (s.blk b).own)).1,
        Function.update s.blk b ⟨(s.blk b).epoch, rest, (i.run (s.mem, (s.blk b).own)).2⟩⟩ := by
      simp [step, hr]
    -- places that the block may read hold what they hold in its own run
    have hread : ∀ ℓ f, i = .read ℓ f → s.mem ℓ = q.1 ℓ := by
      intro ℓ f hif
      by_cases hob : own E ℓ = some b
      · exact hm ℓ hob
      · rw [hq, solo_other past ℓ (fun f hf => hob (hpast ℓ f hf))]
        by_cases hE' : ∃ c, own E ℓ = some c ∧ (s.blk c).epoch = E
        · obtain ⟨c, hc1, hc2⟩ := hE'
          obtain ⟨pc, h1, h2, h3, h4⟩ := h.state c
          rw [h3 hc2 ℓ hc1, solo_other pc ℓ]
          intro g hg
          have hcb : b ≠ c := by rintro rfl; exact hob hc1
          have := h4 hc2 ℓ g hg b hcb
          simp [pending, hE, hr, hif, Instr.reads] at this
        · exact h.mem ℓ (fun c hc1 hc2 => hE' ⟨c, hc1, hc2⟩)
    have hown : (i.run (s.mem, (s.blk b).own)).2 = (i.run q).2 := by
      cases i with
      | comp f => simp [Instr.run, hl]
      | read ℓ f => simp [Instr.run, hl, hread ℓ f rfl]
      | write ℓ f => simp [Instr.run, hl]
    have hmem : ∀ ℓ, own E ℓ = some b → (i.run (s.mem, (s.blk b).own)).1 ℓ = (i.run q).1 ℓ := by
      intro ℓ hℓ
      cases i with
      | comp f => exact hm ℓ hℓ
      | read l f => exact hm ℓ hℓ
      | write l f =>
        simp only [Instr.run, hl]
        by_cases e : ℓ = l
        · subst e; simp
        · simp [Function.update_of_ne e, hm ℓ hℓ]
    have hoth : ∀ ℓ, own E ℓ ≠ some b → (i.run (s.mem, (s.blk b).own)).1 ℓ = s.mem ℓ := by
      intro ℓ hℓ
      cases i with
      | comp f => rfl
      | read l f => rfl
      | write l f =>
        have : ℓ ≠ l := by rintro rfl; exact hℓ (hi _ _ rfl)
        simp [Instr.run, Function.update_of_ne this]
    have hep : ∀ c, ((step prog s b).blk c).epoch = (s.blk c).epoch := by
      intro c
      rw [hstep]
      by_cases e : c = b
      · subst e; simp
      · simp [Function.update_of_ne e]
    have hpend : ∀ c ℓ, pending prog s E c ℓ = false → pending prog (step prog s b) E c ℓ = false := by
      intro c ℓ hpc
      by_cases e : c = b
      · subst e
        simp only [pending, hep, hE, if_true, hr] at hpc ⊢
        rw [hstep]
        simp only [Function.update_self]
        rw [List.any_cons, Bool.or_eq_false_iff] at hpc
        exact hpc.2
      · simp only [pending, hep] at hpc ⊢
        rw [hstep]
        simpa only [Function.update_of_ne e] using hpc
    refine ⟨E, ⟨?_, ?_, ?_, ?_⟩⟩
    · intro c
      rw [hep]
      by_cases e : c = b
      · subst e; exact .inl hE
      · rw [hstep]; simpa [Function.update_of_ne e] using h.level c
    · intro c; rw [hep]
      exact h.within c
    · intro c
      by_cases e : c = b
      · subst e
        refine ⟨past ++ [i], ?_, ?_, ?_, ?_⟩
        rotate_left 3
        · intro _ ℓ f hf d hd
          refine hpend d ℓ ?_
          rw [List.mem_append, List.mem_singleton] at hf
          rcases hf with hf | hf
          · exact hw hE ℓ f hf d hd
          · have := hc ℓ (by rw [nextWrite, hr, ← hf]) d hd
            rwa [hE] at this
        · rw [hep, hE, ← hp, hr, hstep]; simp
        · rw [hep, hE, hstep, solo_append]
          simp only [Function.update_self]
          exact hown
        · intro _ ℓ hℓ
          rw [hstep, solo_append]
          exact hmem ℓ hℓ
      · obtain ⟨pc, h1, h2, h3, h4⟩ := h.state c
        refine ⟨pc, ?_, ?_, ?_, fun he ℓ f hf d hd => hpend d ℓ (h4 (by rwa [hep] at he) ℓ f hf d hd)⟩
        · rw [hep, ← h1, hstep]; simp [Function.update_of_ne e]
        · rw [hep, ← h2, hstep]; simp [Function.update_of_ne e]
        · rw [hep]
          intro hc ℓ hℓ
          rw [← h3 hc ℓ hℓ, hstep]
          exact hoth ℓ (by rw [hℓ]; simpa using e)
    · intro ℓ hℓ
      have hℓ' : ∀ b, own E ℓ = some b → (s.blk b).epoch ≠ E := fun c hc => by
        have := hℓ c hc
        rwa [hep] at this
      rw [← h.mem ℓ hℓ', hstep]
      exact hoth ℓ (fun hb => hℓ' b hb hE)
  | nil =>
    rw [hr, List.append_nil] at hp
    cases hseg : (prog b)[(s.blk b).epoch + 1]? with
    | none => exact ⟨E, by simpa [step, hr, hseg] using h⟩
    | some sg =>
      by_cases harr : ∀ c, arrived s (s.blk b).epoch c = true
      swap
      · exact ⟨E, by simpa [step, hr, hseg, harr] using h⟩
      have hstep : step prog s b = ⟨s.mem, Function.update s.blk b ⟨(s.blk b).epoch + 1, sg, (s.blk b).own⟩⟩ := by
        simp only [step, hr, hseg]
        rw [if_pos harr]
      have hlen := (List.getElem?_eq_some_iff.mp hseg).1
      have hsg : seg prog b ((s.blk b).epoch + 1) = sg := by simp [seg, hseg]
      have hown : (s.blk b).own = (after prog own m x ((s.blk b).epoch + 1)).2 b := by
        rw [hl, hp]; rfl
      have hself : (step prog s b).blk b = ⟨(s.blk b).epoch + 1, sg, (s.blk b).own⟩ := by
        rw [hstep]; simp
      have hother : ∀ c, c ≠ b → (step prog s b).blk c = s.blk c := by
        intro c e; rw [hstep]; simp [Function.update_of_ne e]
      have hmemEq : (step prog s b).mem = s.mem := by rw [hstep]
      rcases h.level b with hE | ⟨hE, _⟩
      · -- the first block to pass the barrier
        have hall : ∀ c, (s.blk c).epoch = E ∧ (s.blk c).rest = [] := by
          intro c
          have h1 := (arrived_iff s _ c).mp (harr c)
          rcases h.level c with h2 | ⟨h2, h3⟩ <;> rcases h1 with h1 | h1
          · omega
          · exact ⟨h2, h1.2⟩
          · omega
          · omega
        have hM : ∀ ℓ, s.mem ℓ = (after prog own m x (E + 1)).1 ℓ := by
          intro ℓ
          simp only [after]
          cases ho : own E ℓ with
          | none => exact h.mem ℓ (by rw [ho]; simp)
          | some c =>
            obtain ⟨pc, h1, h2, h3, _⟩ := h.state c
            rw [(hall c).2, List.append_nil, (hall c).1] at h1
            rw [h3 (hall c).1 ℓ ho, h1]
        rw [hE] at hself hsg hown hlen
        refine ⟨E + 1, ⟨?_, ?_, ?_, ?_⟩⟩
        · intro c
          by_cases e : c = b
          · subst e; rw [hself]; exact .inl rfl
          · rw [hother c e]; exact .inr ⟨by rw [(hall c).1], (hall c).2⟩
        · intro c
          by_cases e : c = b
          · subst e; rw [hself]; exact .inl hlen
          · rw [hother c e]; exact h.within c
        · intro c
          by_cases e : c = b
          · subst e
            refine ⟨[], ?_, ?_, ?_, fun _ ℓ f h => absurd h (by simp)⟩
            · rw [hself]; simpa using hsg.symm
            · rw [hself]; simpa [solo] using hown
            · intro _ ℓ _; rw [hmemEq, hM ℓ]; rfl
          · obtain ⟨pc, h1, h2, h3, _⟩ := h.state c
            refine ⟨pc, ?_, ?_, ?_, ?_⟩
            · rw [hother c e]; exact h1
            · rw [hother c e]; exact h2
            · rw [hother c e, (hall c).1]; intro h; omega
            · rw [hother c e, (hall c).1]; intro h; omega
        · intro ℓ _; rw [hmemEq, hM ℓ]
      · -- a later block
        refine ⟨E, ⟨?_, ?_, ?_, ?_⟩⟩
        · intro c
          by_cases e : c = b
          · subst e; rw [hself]; exact .inl hE
          · rw [hother c e]; exact h.level c
        · intro c
          by_cases e : c = b
          · subst e; rw [hself]; exact .inl hlen
          · rw [hother c e]; exact h.within c
        · intro c
          by_cases e : c = b
          · subst e
            refine ⟨[], ?_, ?_, ?_, fun _ ℓ f h => absurd h (by simp)⟩
            · rw [hself]; simpa using hsg.symm
            · rw [hself]; simpa [solo] using hown
            · intro _ ℓ hℓ
              rw [hmemEq, h.mem ℓ]
              · rfl
              · intro d hd; rw [hℓ] at hd; obtain rfl := Option.some.inj hd; omega
          · obtain ⟨pc, h1, h2, h3, h4⟩ := h.state c
            refine ⟨pc, ?_, ?_, ?_, ?_⟩
            · rw [hother c e]; exact h1
            · rw [hother c e]; exact h2
            · rw [hother c e, hmemEq]; exact h3
            · rw [hother c e]
              intro he ℓ f hf d hd
              have := h4 he ℓ f hf d hd
              by_cases edb : d = b
              · subst edb
                have hlt : (s.blk d).epoch < E := by omega
                have hnE : (s.blk d).epoch ≠ E := by omega
                simp only [pending, hself, hE, if_true, if_neg hnE, hlt, decide_true, Bool.true_and] at this ⊢
                rw [← hE, hseg] at this
                exact this
              · simpa only [pending, hother d edb] using this
        · intro ℓ hℓ
          rw [hmemEq]
          refine h.mem ℓ (fun c hc => ?_)
          by_cases e : c = b
          · subst e; omega
          · have := hℓ c hc; rwa [hother c e] at this

theorem run_inv (prog : B → Prog Loc V L) (own : Nat → Loc → Option B) (m : Loc → V) (x : B → L)
    (how : OneWriter prog own) : ∀ (bs : List B) (s : State B Loc V L) (E : Nat), Calm prog bs s →
    Inv prog own m x E s → ∃ E', Inv prog own m x E' (run prog bs s) := by
  intro bs
  induction bs with
  | nil => intro s E _ h; exact ⟨E, h⟩
  | cons b bs ih =>
    intro s E hc h
    obtain ⟨E', h'⟩ := step_inv prog own m x how E s h b (fun ℓ hℓ => by
      have := hc.1
      rw [hℓ] at this
      exact this)
    exact ih _ E' hc.2 h'

/-- Every calm schedule that ends gives the same states of the blocks. -/
theorem run_done (prog : B → Prog Loc V L) (own : Nat → Loc → Option B) (m : Loc → V) (x : B → L)
    (how : OneWriter prog own) (bs : List B) (hc : Calm prog bs (start prog m x))
    (hd : Done prog (run prog bs (start prog m x))) (b : B) :
    ((run prog bs (start prog m x)).blk b).own = (after prog own m x (prog b).length).2 b := by
  obtain ⟨E, h⟩ := run_inv prog own m x how bs _ 0 hc (start_inv prog own m x)
  obtain ⟨h1, h2⟩ := hd b
  obtain ⟨past, hp, hl, _⟩ := h.state b
  rw [h2, List.append_nil] at hp
  rw [hl, ← h1, hp]
  rfl

/-- What is left to do in an interval is a part of the program. -/
def Partway (prog : B → Prog Loc V L) (s : State B Loc V L) : Prop :=
  ∀ b, ∀ i ∈ (s.blk b).rest, i ∈ seg prog b (s.blk b).epoch

theorem start_partway (prog : B → Prog Loc V L) (m : Loc → V) (x : B → L) : Partway prog (start prog m x) := by
  intro b i hi
  cases h : prog b with
  | nil => simp [start, h] at hi
  | cons a t => simpa [start, seg, h] using hi

theorem step_partway (prog : B → Prog Loc V L) (s : State B Loc V L) (h : Partway prog s) (b : B) :
    Partway prog (step prog s b) := by
  intro c i hi
  cases hr : (s.blk b).rest with
  | cons j rest =>
    have hst : (step prog s b).blk = Function.update s.blk b ⟨(s.blk b).epoch, rest,
        (j.run (s.mem, (s.blk b).own)).2⟩ := by simp [step, hr]
    rw [hst] at hi ⊢
    by_cases e : c = b
    · subst e
      simp only [Function.update_self] at hi ⊢
      exact h c i (by rw [hr]; exact List.mem_cons_of_mem _ hi)
    · simp only [Function.update_of_ne e] at hi ⊢
      exact h c i hi
  | nil =>
    cases hseg : (prog b)[(s.blk b).epoch + 1]? with
    | none =>
      have hst : step prog s b = s := by simp [step, hr, hseg]
      rw [hst] at hi ⊢
      exact h c i hi
    | some sg =>
      by_cases harr : ∀ c, arrived s (s.blk b).epoch c = true
      · have hst : step prog s b = ⟨s.mem, Function.update s.blk b ⟨(s.blk b).epoch + 1, sg, (s.blk b).own⟩⟩ := by
          simp only [step, hr, hseg]
          rw [if_pos harr]
        rw [hst] at hi ⊢
        by_cases e : c = b
        · subst e
          simp only [Function.update_self] at hi ⊢
          rw [seg, hseg]; exact hi
        · simp only [Function.update_of_ne e] at hi ⊢
          exact h c i hi
      · have hst : step prog s b = s := by
          simp only [step, hr, hseg]
          rw [if_neg harr]
        rw [hst] at hi ⊢
        exact h c i hi

/-- Without races every schedule is calm. -/
theorem calm_of_raceFree (prog : B → Prog Loc V L) (own : Nat → Loc → Option B) (hrf : RaceFree prog own) :
    ∀ (bs : List B) (s : State B Loc V L), Partway prog s → Calm prog bs s := by
  intro bs
  induction bs with
  | nil => intro s _; trivial
  | cons b bs ih =>
    intro s hp
    refine ⟨?_, ih _ (step_partway prog s hp b)⟩
    cases hr : (s.blk b).rest with
    | nil => simp [nextWrite, hr]
    | cons i rest =>
      cases i with
      | comp f => simp [nextWrite, hr]
      | read ℓ f => simp [nextWrite, hr]
      | write ℓ f =>
        simp only [nextWrite, hr]
        intro c hcb
        have hb : own (s.blk b).epoch ℓ = some b :=
          hrf b _ _ (hp b (.write ℓ f) (by rw [hr]; exact List.mem_cons_self))
        have key : ∀ i ∈ seg prog c (s.blk b).epoch, Instr.reads ℓ i = false := by
          intro i hi
          have := hrf c _ i hi
          cases i with
          | comp f => rfl
          | write l f => rfl
          | read l f =>
            simp only [Instr.reads, decide_eq_false_iff_not]
            rintro rfl
            rcases this with h1 | h1
            · rw [hb] at h1; exact hcb (Option.some.inj h1).symm
            · rw [hb] at h1; exact absurd h1 (by simp)
        unfold pending
        split
        · rename_i he
          rw [List.any_eq_false]
          intro i hi
          rw [key i (by rw [← he]; exact hp c i hi)]
          simp
        · rw [Bool.and_eq_false_iff]
          right
          rw [List.any_eq_false]
          intro i hi
          rw [key i hi]
          simp

/-! ### No schedule blocks -/

/-- What block `b` still has to do. -/
def left (prog : B → Prog Loc V L) (s : State B Loc V L) (b : B) : Nat :=
  (s.blk b).rest.length + (((prog b).drop ((s.blk b).epoch + 1)).map fun g => g.length + 1).sum

/-- Every block follows its program: a simpler invariant, which needs no condition on the accesses. -/
structure Follows (prog : B → Prog Loc V L) (E : Nat) (s : State B Loc V L) : Prop where
  level : ∀ b, (s.blk b).epoch = E ∨ ((s.blk b).epoch + 1 = E ∧ (s.blk b).rest = [])
  within : ∀ b, (s.blk b).epoch < (prog b).length

theorem step_follows (prog : B → Prog Loc V L) (E : Nat) (s : State B Loc V L) (h : Follows prog E s) (b : B) :
    ∃ E', Follows prog E' (step prog s b) := by
  cases hr : (s.blk b).rest with
  | cons i rest =>
    refine ⟨E, ⟨fun c => ?_, fun c => ?_⟩⟩
    · by_cases e : c = b
      · subst e
        rcases h.level c with h1 | ⟨_, h1⟩
        · left; simpa [step, hr] using h1
        · rw [hr] at h1; exact absurd h1 (by simp)
      · simpa [step, hr, Function.update_of_ne e] using h.level c
    · have := h.within c
      by_cases e : c = b
      · subst e; simpa [step, hr] using this
      · simpa [step, hr, Function.update_of_ne e] using this
  | nil =>
    cases hseg : (prog b)[(s.blk b).epoch + 1]? with
    | none => exact ⟨E, by simpa [step, hr, hseg] using h⟩
    | some sg =>
      by_cases harr : ∀ c, arrived s (s.blk b).epoch c = true
      swap
      · exact ⟨E, by simpa [step, hr, hseg, harr] using h⟩
      have hstep : step prog s b = ⟨s.mem, Function.update s.blk b ⟨(s.blk b).epoch + 1, sg, (s.blk b).own⟩⟩ := by
        simp only [step, hr, hseg]
        rw [if_pos harr]
      have hlen := (List.getElem?_eq_some_iff.mp hseg).1
      have hw : ∀ c, ((step prog s b).blk c).epoch < (prog c).length := by
        intro c
        rw [hstep]
        by_cases e : c = b
        · subst e; simpa using hlen
        · simpa [Function.update_of_ne e] using h.within c
      rcases h.level b with hE | ⟨hE, _⟩
      · refine ⟨E + 1, ⟨fun c => ?_, hw⟩⟩
        rw [hstep]
        by_cases e : c = b
        · subst e; simp [hE]
        · have h1 := (arrived_iff s _ c).mp (harr c)
          simp only [Function.update_of_ne e]
          rcases h.level c with h2 | ⟨h2, h3⟩ <;> rcases h1 with h1 | h1
          · omega
          · exact .inr ⟨by omega, h1.2⟩
          · omega
          · omega
      · refine ⟨E, ⟨fun c => ?_, hw⟩⟩
        rw [hstep]
        by_cases e : c = b
        · subst e; simp [hE]
        · simpa [Function.update_of_ne e] using h.level c

theorem run_follows (prog : B → Prog Loc V L) : ∀ (bs : List B) (s : State B Loc V L) (E : Nat),
    Follows prog E s → ∃ E', Follows prog E' (run prog bs s) := by
  intro bs
  induction bs with
  | nil => intro s E h; exact ⟨E, h⟩
  | cons b bs ih =>
    intro s E h
    obtain ⟨E', h'⟩ := step_follows prog E s h b
    exact ih _ E' h'

theorem start_follows (prog : B → Prog Loc V L) (hp : ∀ b, prog b ≠ []) (m : Loc → V) (x : B → L) :
    Follows prog 0 (start prog m x) :=
  ⟨fun _ => .inl rfl, fun b => List.length_pos_iff.mpr (hp b)⟩

theorem run_append (prog : B → Prog Loc V L) (as bs : List B) (s : State B Loc V L) :
    run prog (as ++ bs) s = run prog bs (run prog as s) := by
  induction as generalizing s with
  | nil => rfl
  | cons a as ih => exact ih _

theorem left_step (prog : B → Prog Loc V L) (s : State B Loc V L) (b : B) (seg' : List (Instr Loc V L))
    (x : L) (mem : Loc → V) (hr : (s.blk b).rest = []) (hs : (prog b)[(s.blk b).epoch + 1]? = some seg') :
    left prog ⟨mem, Function.update s.blk b ⟨(s.blk b).epoch + 1, seg', x⟩⟩ b + 1 = left prog s b := by
  have hlen := (List.getElem?_eq_some_iff.mp hs).1
  have hget := (List.getElem?_eq_some_iff.mp hs).2
  simp only [left, Function.update_self, hr, List.length_nil, Nat.zero_add]
  rw [List.drop_eq_getElem_cons hlen, hget]
  simp only [List.map_cons, List.sum_cons]
  omega

/-- As long as the launch is not done, some block can move and then has less left to do. -/
theorem progress (prog : B → Prog Loc V L) (n : Nat) (hn : ∀ b, (prog b).length = n) (E : Nat)
    (s : State B Loc V L) (h : Follows prog E s) (hd : ¬ Done prog s) :
    ∃ b, left prog (step prog s b) b < left prog s b ∧
      ∀ c, c ≠ b → left prog (step prog s b) c = left prog s c := by
  by_cases hr : ∀ b, (s.blk b).rest = []
  · -- all wait at a barrier; the first ones can pass it
    have hpass : ∀ b, (s.blk b).epoch + 1 < n → (∀ c, arrived s (s.blk b).epoch c = true) →
        ∃ b, left prog (step prog s b) b < left prog s b ∧
          ∀ c, c ≠ b → left prog (step prog s b) c = left prog s c := by
      intro b hb harr
      have hs : (prog b)[(s.blk b).epoch + 1]? = some ((prog b)[(s.blk b).epoch + 1]'(by rw [hn]; exact hb)) :=
        List.getElem?_eq_getElem _
      have hstep : step prog s b = ⟨s.mem, Function.update s.blk b ⟨(s.blk b).epoch + 1,
          (prog b)[(s.blk b).epoch + 1]'(by rw [hn]; exact hb), (s.blk b).own⟩⟩ := by
        simp only [step, hr b, hs]
        rw [if_pos harr]
      refine ⟨b, ?_, ?_⟩
      · rw [hstep]
        have := left_step prog s b _ (s.blk b).own s.mem (hr b) hs
        omega
      · intro c e
        rw [hstep]
        simp [left, Function.update_of_ne e]
    by_cases hlow : ∃ b, (s.blk b).epoch + 1 = E
    · obtain ⟨b, hb⟩ := hlow
      obtain ⟨c, hc⟩ : ∃ c, (s.blk c).epoch = E ∨ E < n + 1 := ⟨b, .inr (by have := h.within b; rw [hn] at this; omega)⟩
      by_cases hE : E < n
      · refine hpass b (by omega) (fun c => ?_)
        rw [arrived_iff]
        rcases h.level c with h1 | ⟨h1, _⟩
        · left; omega
        · right; exact ⟨by omega, hr c⟩
      · exfalso
        apply hd
        intro c
        have h1 := h.within c
        rw [hn] at h1
        refine ⟨?_, hr c⟩
        rw [hn]
        rcases h.level c with h2 | ⟨h2, _⟩ <;> omega
    · have hall : ∀ b, (s.blk b).epoch = E := fun b => by
        rcases h.level b with h1 | ⟨h1, _⟩
        · exact h1
        · exact absurd ⟨b, h1⟩ hlow
      have : ∃ b, ¬ DoneAt prog s b := by
        by_contra hc
        exact hd (fun b => by by_contra hb; exact hc ⟨b, hb⟩)
      obtain ⟨b, hb⟩ := this
      have h1 := h.within b
      rw [hn] at h1
      refine hpass b ?_ (fun c => ?_)
      · by_contra hc
        exact hb ⟨by rw [hn]; omega, hr b⟩
      · rw [arrived_iff]; right; exact ⟨by rw [hall, hall], hr c⟩
  · have : ∃ b, (s.blk b).rest ≠ [] := by
      by_contra hc
      exact hr (fun b => by by_contra hb; exact hc ⟨b, hb⟩)
    obtain ⟨b, hb⟩ := this
    obtain ⟨i, rest, hi⟩ := List.exists_cons_of_ne_nil hb
    refine ⟨b, ?_, ?_⟩
    · simp [left, step, hi]
    · intro c e
      simp [left, step, hi, Function.update_of_ne e]

/-- Every run can be continued to the end. -/
theorem run_finishes (prog : B → Prog Loc V L) (n : Nat) (hn : ∀ b, (prog b).length = n) :
    ∀ (k : Nat) (s : State B Loc V L) (E : Nat), Follows prog E s →
      (∑ b, left prog s b) ≤ k → ∃ bs, Done prog (run prog bs s) := by
  intro k
  induction k with
  | zero =>
    intro s E h hk
    by_cases hd : Done prog s
    · exact ⟨[], hd⟩
    · obtain ⟨b, h1, _⟩ := progress prog n hn E s h hd
      have := Finset.single_le_sum (f := fun b => left prog s b) (fun _ _ => Nat.zero_le _) (Finset.mem_univ b)
      omega
  | succ k ih =>
    intro s E h hk
    by_cases hd : Done prog s
    · exact ⟨[], hd⟩
    · obtain ⟨b, h1, h2⟩ := progress prog n hn E s h hd
      obtain ⟨E', h'⟩ := step_follows prog E s h b
      have hlt : (∑ c, left prog (step prog s b) c) < ∑ c, left prog s c := by
        refine Finset.sum_lt_sum (fun c _ => ?_) ⟨b, Finset.mem_univ b, h1⟩
        by_cases e : c = b
        · subst e; exact h1.le
        · rw [h2 c e]
      obtain ⟨bs, hbs⟩ := ih _ E' h' (by omega)
      exact ⟨b :: bs, hbs⟩

end Verif.Cuda.Grid
