import Verif.Session.Model
import Verif.Random.Fork
/-
Locality: what a draw returns depends only on the bytes between the positions before and after it.
-/
namespace Verif.Session
open Verif.Random Verif.Engine
variable {A B : Type}

/-- The source `g` reading another table. -/
def reTable (g : Src) (t : Nat → BitVec 8) : Src := { g with table := t }

/-- `t` has the same bytes as `g` from the position of `g` to that of `g'`. -/
def Same (g g' : Src) (t : Nat → BitVec 8) : Prop := ∀ p, g.pos ≤ p → p < g'.pos → t p = g.table p

/-- `g'` is `g` some bytes later, within its bound. -/
structure Later (g g' : Src) : Prop where
  table : g'.table = g.table
  bound : g'.bound = g.bound
  le : g.pos ≤ g'.pos
  within : g.pos ≤ g.bound → g'.pos ≤ g.bound

theorem Later.refl (g : Src) : Later g g := ⟨rfl, rfl, Nat.le_refl _, id⟩
theorem Later.trans {a b c : Src} (h : Later a b) (k : Later b c) : Later a c :=
  ⟨k.table.trans h.table, k.bound.trans h.bound, Nat.le_trans h.le k.le,
    fun x => by have := k.within (by rw [h.bound]; exact h.within x); rwa [h.bound] at this⟩
theorem Later.eq {a b : Src} (h : Later a b) : b = { a with pos := b.pos } := by
  cases b; cases a; cases h.table; cases h.bound; rfl

theorem Same.left {a b c : Src} {t : Nat → BitVec 8} (k : Later b c) (h : Same a c t) : Same a b t :=
  fun p h1 h2 => h p h1 (Nat.lt_of_lt_of_le h2 k.le)
theorem Same.right {a b c : Src} {t : Nat → BitVec 8} (k : Later a b) (h : Same a c t) : Same b c t :=
  fun p h1 h2 => by rw [k.table]; exact h p (Nat.le_trans k.le h1) h2

/-- A sampler reads only the bytes it consumes. -/
def Local (s : Samp A) : Prop := ∀ g a g', s g = some (a, g') → Later g g' ∧
  ∀ t, Same g g' t → s (reTable g t) = some (a, reTable g' t)

theorem local_next : Local Src.next := by
  intro g a g' h
  simp only [Src.next] at h
  split at h
  · rename_i hlt
    simp only [Option.some.injEq, Prod.mk.injEq] at h
    obtain ⟨rfl, rfl⟩ := h
    refine ⟨⟨rfl, rfl, Nat.le_succ _, fun _ => hlt⟩, fun t ht => ?_⟩
    have e := ht g.pos (Nat.le_refl _) (Nat.lt_succ_self _)
    simp only [Src.next, reTable, e]
    exact if_pos hlt
  · cases h

theorem local_rep {s : Samp A} (hs : Local s) : ∀ n, Local (rep n s)
  | 0 => by
    intro g a g' h
    simp only [rep, Option.some.injEq, Prod.mk.injEq] at h
    obtain ⟨rfl, rfl⟩ := h
    exact ⟨Later.refl _, fun t _ => rfl⟩
  | n + 1 => by
    intro g a g' h
    simp only [rep] at h
    split at h
    · cases h
    · rename_i x g1 e1
      split at h
      · cases h
      · rename_i xs g2 e2
        simp only [Option.some.injEq, Prod.mk.injEq] at h
        obtain ⟨rfl, rfl⟩ := h
        obtain ⟨l1, k1⟩ := hs _ _ _ e1
        obtain ⟨l2, k2⟩ := local_rep hs n _ _ _ e2
        refine ⟨l1.trans l2, fun t ht => ?_⟩
        simp only [rep, k1 t (ht.left l2), k2 t (ht.right l1)]

theorem local_uniform (w : Nat) : Local (uniform w) := by
  intro g a g' h
  simp only [uniform] at h
  split at h
  · cases h
  · rename_i bs g1 e1
    simp only [Option.some.injEq, Prod.mk.injEq] at h
    obtain ⟨rfl, rfl⟩ := h
    obtain ⟨l1, k1⟩ := local_rep local_next _ _ _ _ e1
    exact ⟨l1, fun t ht => by simp only [uniform, k1 t ht]⟩

theorem local_binary (w : Nat) : Local (uniformBinary w) := by
  intro g a g' h
  simp only [uniformBinary] at h
  split at h
  · cases h
  · rename_i b g1 e1
    simp only [Option.some.injEq, Prod.mk.injEq] at h
    obtain ⟨rfl, rfl⟩ := h
    obtain ⟨l1, k1⟩ := local_next _ _ _ e1
    exact ⟨l1, fun t ht => by simp only [uniformBinary, k1 t ht]⟩

theorem local_gaussianLoop {w : Nat} (f : GaussianFn w) : ∀ n, Local (gaussianLoop f n)
  | 0 => by intro g a g' h; cases h
  | n + 1 => by
    intro g a g' h
    simp only [gaussianLoop] at h
    split at h
    · cases h
    · rename_i u g1 e1
      split at h
      · cases h
      · rename_i v g2 e2
        obtain ⟨l1, k1⟩ := local_uniform _ _ _ _ e1
        obtain ⟨l2, k2⟩ := local_uniform _ _ _ _ e2
        split at h
        · rename_i hacc
          simp only [Option.some.injEq, Prod.mk.injEq] at h
          obtain ⟨rfl, rfl⟩ := h
          refine ⟨l1.trans l2, fun t ht => ?_⟩
          simp only [gaussianLoop, k1 t (ht.left l2), k2 t (ht.right l1), hacc, if_true]
        · rename_i hacc
          obtain ⟨l3, k3⟩ := local_gaussianLoop f n _ _ _ h
          refine ⟨l1.trans (l2.trans l3), fun t ht => ?_⟩
          simp only [gaussianLoop, k1 t (ht.left (l2.trans l3)), k2 t ((ht.right l1).left l3), hacc,
            k3 t ((ht.right l1).right l2)]
          rfl

theorem local_pair {w : Nat} (f : GaussianFn w) : Local (gaussianPair f) := by
  intro g a g' h
  obtain ⟨l, k⟩ := local_gaussianLoop f _ _ _ _ h
  exact ⟨l, fun t ht => k t ht⟩

theorem local_noise {w : Nat} (f : GaussianFn w) : Local (randomNoise f) := by
  intro g a g' h
  simp only [randomNoise] at h
  split at h
  · cases h
  · rename_i b g1 e1
    simp only [Option.some.injEq, Prod.mk.injEq] at h
    obtain ⟨rfl, rfl⟩ := h
    obtain ⟨l1, k1⟩ := local_pair f _ _ _ e1
    exact ⟨l1, fun t ht => by simp only [randomNoise, k1 t ht]⟩

theorem local_noiseTensor {w : Nat} (f : GaussianFn w) (n : Nat) : Local (randomNoiseTensor f n) := by
  intro g a g' h
  simp only [randomNoiseTensor] at h
  split at h
  · cases h
  · rename_i b g1 e1
    simp only [Option.some.injEq, Prod.mk.injEq] at h
    obtain ⟨rfl, rfl⟩ := h
    obtain ⟨l1, k1⟩ := local_rep (local_pair f) _ _ _ _ e1
    exact ⟨l1, fun t ht => by simp only [randomNoiseTensor, k1 t ht]⟩

/-! ### Actions on the encryption generator -/

/-- An action that may panic. -/
abbrev Act (A : Type) := EncGen → Option (A × EncGen)

/-- The encryption generator with other tables. -/
def reTables (g : EncGen) (t u : Nat → BitVec 8) : EncGen :=
  { mask := reTable g.mask t, noise := reTable g.noise u }

/-- Both generators advance. -/
structure LaterE (g g' : EncGen) : Prop where
  mask : Later g.mask g'.mask
  noise : Later g.noise g'.noise

theorem LaterE.refl (g : EncGen) : LaterE g g := ⟨Later.refl _, Later.refl _⟩
theorem LaterE.trans {a b c : EncGen} (h : LaterE a b) (k : LaterE b c) : LaterE a c :=
  ⟨h.mask.trans k.mask, h.noise.trans k.noise⟩

/-- `t`, `u` have the same bytes as the mask and noise generators between `g` and `g'`. -/
structure SameE (g g' : EncGen) (t u : Nat → BitVec 8) : Prop where
  mask : Same g.mask g'.mask t
  noise : Same g.noise g'.noise u

theorem SameE.left {a b c : EncGen} {t u : Nat → BitVec 8} (k : LaterE b c) (h : SameE a c t u) :
    SameE a b t u := ⟨h.mask.left k.mask, h.noise.left k.noise⟩
theorem SameE.right {a b c : EncGen} {t u : Nat → BitVec 8} (k : LaterE a b) (h : SameE a c t u) :
    SameE b c t u := ⟨h.mask.right k.mask, h.noise.right k.noise⟩

/-- An action reads only the bytes it consumes. -/
def LocalE (s : Act A) : Prop := ∀ g a g', s g = some (a, g') → LaterE g g' ∧
  ∀ t u, SameE g g' t u → s (reTables g t u) = some (a, reTables g' t u)

theorem localE_pure (a : A) : LocalE (fun g => some (a, g)) := by
  intro g x g' h
  simp only [Option.some.injEq, Prod.mk.injEq] at h
  obtain ⟨rfl, rfl⟩ := h
  exact ⟨LaterE.refl _, fun t u _ => rfl⟩

theorem localE_none : LocalE (fun _ => (none : Option (A × EncGen))) := by
  intro g x g' h; cases h

theorem localE_bind {s : Act A} {k : A → Act B} (hs : LocalE s) (hk : ∀ a, LocalE (k a)) :
    LocalE (fun g => (s g).bind fun r => k r.1 r.2) := by
  intro g b g' h
  obtain ⟨⟨a, g1⟩, e1, e2⟩ := Option.bind_eq_some_iff.1 h
  obtain ⟨l1, k1⟩ := hs _ _ _ e1
  obtain ⟨l2, k2⟩ := hk a _ _ _ e2
  refine ⟨l1.trans l2, fun t u ht => ?_⟩
  show (s (reTables g t u)).bind _ = _
  rw [k1 t u (ht.left l2)]
  exact k2 t u (ht.right l1)

theorem localE_map {s : Act A} (φ : A → B) (hs : LocalE s) :
    LocalE (fun g => (s g).map fun r => (φ r.1, r.2)) := by
  intro g b g' h
  obtain ⟨⟨a, g1⟩, e1, e2⟩ := Option.map_eq_some_iff.1 h
  simp only [Prod.mk.injEq] at e2
  obtain ⟨rfl, rfl⟩ := e2
  obtain ⟨l1, k1⟩ := hs _ _ _ e1
  refine ⟨l1, fun t u ht => ?_⟩
  show (s (reTables g t u)).map _ = _
  rw [k1 t u ht]
  rfl

theorem localE_mask {s : Samp A} (hs : Local s) :
    LocalE (fun g => (s g.mask).map fun r => (r.1, { g with mask := r.2 })) := by
  intro g b g' h
  obtain ⟨⟨a, g1⟩, e1, e2⟩ := Option.map_eq_some_iff.1 h
  simp only [Prod.mk.injEq] at e2
  obtain ⟨rfl, rfl⟩ := e2
  obtain ⟨l1, k1⟩ := hs _ _ _ e1
  refine ⟨⟨l1, Later.refl _⟩, fun t u ht => ?_⟩
  show (s (reTable g.mask t)).map _ = _
  rw [k1 t ht.mask]
  rfl

theorem localE_noise {s : Samp A} (hs : Local s) :
    LocalE (fun g => (s g.noise).map fun r => (r.1, { g with noise := r.2 })) := by
  intro g b g' h
  obtain ⟨⟨a, g1⟩, e1, e2⟩ := Option.map_eq_some_iff.1 h
  simp only [Prod.mk.injEq] at e2
  obtain ⟨rfl, rfl⟩ := e2
  obtain ⟨l1, k1⟩ := hs _ _ _ e1
  refine ⟨⟨Later.refl _, l1⟩, fun t u ht => ?_⟩
  show (s (reTable g.noise u)).map _ = _
  rw [k1 u ht.noise]
  rfl

/-! ### Forks -/

theorem parStep_mono {α : Type} {job job' : Nat → α → Option α}
    (h : ∀ i c c', job i c = some c' → job' i c = some c') (l : List α) (i : Nat) (r : List α)
    (e : parStep job (some l) i = some r) : parStep job' (some l) i = some r := by
  unfold parStep at e ⊢
  dsimp only at e ⊢
  split at e
  · exact e
  · rename_i c hc
    cases hj : job i c with
    | none => rw [hj] at e; cases e
    | some c' => rw [hj] at e; rw [h i c c' hj]; exact e

theorem parFor_mono {α : Type} {job job' : Nat → α → Option α}
    (h : ∀ i c c', job i c = some c' → job' i c = some c') : ∀ (sched : List Nat) (l r : List α),
    parFor job sched l = some r → parFor job' sched l = some r := by
  intro sched
  induction sched with
  | nil => intro l r e; exact e
  | cons i sched ih =>
    intro l r e
    simp only [parFor, List.foldl_cons] at e ih ⊢
    cases hs : parStep job (some l) i with
    | none => rw [hs, foldl_parStep_none] at e; cases e
    | some l' =>
      rw [hs] at e
      rw [parStep_mono h l i l' hs]
      exact ih l' r e

/-- A parallel loop over the children of a fork. `job gens i c` is the work of job `i`; it must read only
through child `i`. -/
theorem localE_fork {α : Type} (n a b : Nat) (job : List EncGen → Nat → α → Option α)
    (hloc : ∀ (gens : List EncGen) (i : Nat) (c c' : α) (t u : Nat → BitVec 8), job gens i c = some c' →
      (∀ g, gens[i]? = some g → g.mask.pos ≤ g.mask.bound ∧ g.noise.pos ≤ g.noise.bound ∧
        (∀ p, g.mask.pos ≤ p → p < g.mask.bound → t p = g.mask.table p) ∧
        (∀ p, g.noise.pos ≤ p → p < g.noise.bound → u p = g.noise.table p)) →
      job (gens.map fun g => reTables g t u) i c = some c')
    (sched : List Nat) (l : List α) (φ : List α → B) :
    LocalE (fun g => match g.tryFork n a b with
      | (.error _, _) => none
      | (.ok gens, g') =>
        match parFor (job gens) sched l with
        | none => none
        | some r => some (φ r, g')) := by
  intro g x g' h
  dsimp only at h
  split at h
  · cases h
  · rename_i gens g1 e1
    split at h
    · cases h
    · rename_i r e2
      simp only [Option.some.injEq, Prod.mk.injEq] at h
      obtain ⟨rfl, rfl⟩ := h
      obtain ⟨p1, p2, p3, p4, p5, rfl, rfl⟩ := encFork_ok e1
      refine ⟨⟨⟨rfl, rfl, Nat.le_add_right _ _, fun _ => p4⟩, ⟨rfl, rfl, Nat.le_add_right _ _, fun _ => p5⟩⟩,
        fun t u ht => ?_⟩
      dsimp only
      rw [encFork_eq (reTables g t u) n a b ⟨p1, p2, p3, p4, p5⟩]
      dsimp only
      have hg : (List.range n).map ((reTables g t u).slice a b) =
          ((List.range n).map (g.slice a b)).map fun g => reTables g t u := by
        rw [List.map_map]; rfl
      rw [hg]
      have := parFor_mono (job' := job (((List.range n).map (g.slice a b)).map fun g => reTables g t u))
        (fun i c c' hc => hloc _ i c c' t u hc (fun gi hgi => by
          rw [List.getElem?_map] at hgi
          obtain ⟨i', hi', e⟩ := Option.map_eq_some_iff.1 hgi
          obtain ⟨hlt, rfl⟩ := List.getElem?_eq_some_iff.1 hi'
          simp only [List.getElem_range] at e
          simp only [List.length_range] at hlt
          subst e
          have q1 : (i + 1) * a ≤ n * a := Nat.mul_le_mul_right _ hlt
          have q2 : (i + 1) * b ≤ n * b := Nat.mul_le_mul_right _ hlt
          have q3 : i * a ≤ (i + 1) * a := Nat.mul_le_mul_right _ (Nat.le_succ _)
          have q4 : i * b ≤ (i + 1) * b := Nat.mul_le_mul_right _ (Nat.le_succ _)
          refine ⟨Nat.add_le_add_left q3 _, Nat.add_le_add_left q4 _, fun p h1 h2 => ?_, fun p h1 h2 => ?_⟩
          · refine ht.mask p (Nat.le_trans (Nat.le_add_right _ _) h1) (Nat.lt_of_lt_of_le h2 ?_)
            exact Nat.add_le_add_left q1 _
          · refine ht.noise p (Nat.le_trans (Nat.le_add_right _ _) h1) (Nat.lt_of_lt_of_le h2 ?_)
            exact Nat.add_le_add_left q2 _)) sched l r e2
      rw [this]
      rfl

/-- The result of a local action on a child whose whole range is the same. -/
theorem LocalE.child {s : Act A} (hs : LocalE s) {g g' : EncGen} {a : A} {t u : Nat → BitVec 8}
    (h : s g = some (a, g')) (h1 : g.mask.pos ≤ g.mask.bound) (h2 : g.noise.pos ≤ g.noise.bound)
    (h3 : ∀ p, g.mask.pos ≤ p → p < g.mask.bound → t p = g.mask.table p)
    (h4 : ∀ p, g.noise.pos ≤ p → p < g.noise.bound → u p = g.noise.table p) :
    s (reTables g t u) = some (a, reTables g' t u) := by
  obtain ⟨l, k⟩ := hs _ _ _ h
  exact k t u ⟨fun p q1 q2 => h3 p q1 (Nat.lt_of_lt_of_le q2 (l.mask.within h1)),
    fun p q1 q2 => h4 p q1 (Nat.lt_of_lt_of_le q2 (l.noise.within h2))⟩

/-- A parallel loop where job `i` is an action on child `i`. -/
theorem localE_jobs {α : Type} (n a b : Nat) (act : Nat → α → Act α) (hact : ∀ i c, LocalE (act i c))
    (job : List EncGen → Nat → α → Option α)
    (hjob : ∀ (gens : List EncGen) (i : Nat) (c : α), job gens i c =
      (gens[i]?).elim (some c) fun g => (act i c g).map (·.1))
    (sched : List Nat) (l : List α) (φ : List α → B) :
    LocalE (fun g => match g.tryFork n a b with
      | (.error _, _) => none
      | (.ok gens, g') =>
        match parFor (job gens) sched l with
        | none => none
        | some r => some (φ r, g')) := by
  refine localE_fork n a b job ?_ sched l φ
  intro gens i c c' t u h hg
  rw [hjob] at h ⊢
  rw [List.getElem?_map]
  cases e : gens[i]? with
  | none => rw [e] at h; exact h
  | some g =>
    rw [e] at h
    obtain ⟨⟨x, g'⟩, h1, rfl⟩ := Option.map_eq_some_iff.1 h
    obtain ⟨q1, q2, q3, q4⟩ := hg g e
    show (act i c (reTables g t u)).map _ = _
    rw [(hact i c).child h1 q1 q2 q3 q4]
    rfl

theorem localE_congr {s s' : Act A} (h : ∀ g, s g = s' g) (k : LocalE s') : LocalE s := by
  rw [funext h]; exact k

/-- `localE_jobs` for an action given by its equation. -/
theorem localE_par {α : Type} (s : Act B) (n a b : Nat) (job : List EncGen → Nat → α → Option α)
    (sched : List Nat) (l : List α) (φ : List α → B)
    (hs : ∀ g g' e, g.tryFork n a b = (.error e, g') → s g = none)
    (hs' : ∀ g g' gens, g.tryFork n a b = (.ok gens, g') →
      s g = (parFor (job gens) sched l).map fun r => (φ r, g'))
    (act : Nat → α → Act α) (hact : ∀ i c, LocalE (act i c))
    (hjob : ∀ (gens : List EncGen) (i : Nat) (c : α), job gens i c =
      (gens[i]?).elim (some c) fun g => (act i c g).map (·.1)) : LocalE s := by
  refine localE_congr (fun g => ?_) (localE_jobs n a b act hact job hjob sched l φ)
  rcases e : g.tryFork n a b with ⟨r | gens, g'⟩
  · exact hs _ _ _ e
  · rw [hs' _ _ _ e]
    dsimp only
    cases parFor (job gens) sched l <;> rfl

end Verif.Session
