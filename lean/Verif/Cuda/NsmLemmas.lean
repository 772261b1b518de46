import Verif.Cuda.NsmSpec
import Verif.Cuda.ThreadLemmas
import Mathlib.Tactic.Ring
/-
Lemmas on the Fourier transform of the GPU: the threads.
-/
namespace Verif.Cuda.Nsm
open Grid

variable {V : Type}

theorem fwdLevels_pow (k m : Nat) : fwdLevels (2 ^ k) m = (List.range k).map fun s => (2 ^ (k - 1 - s), 2 ^ (s + 1) * m) := by
  induction k generalizing m with
  | zero => rw [fwdLevels]; simp
  | succ k ih =>
    rw [fwdLevels, if_pos (Nat.one_lt_two_pow (by omega)), show 2 ^ (k + 1) / 2 = 2 ^ k by omega, ih, List.range_succ_eq_map,
      List.map_cons, List.map_map]
    refine congrArg₂ _ (by simp) (List.map_congr_left fun s _ => ?_)
    simp only [Function.comp_apply, Prod.mk.injEq, Nat.succ_eq_add_one]
    refine ⟨by congr 1; omega, by ring⟩

theorem invLevels_pow (k t : Nat) : invLevels (2 ^ k) t = (List.range k).map fun s => (2 ^ s * t, 2 ^ (k - 1 - s)) := by
  induction k generalizing t with
  | zero => rw [invLevels]; simp
  | succ k ih =>
    rw [invLevels, if_pos (Nat.one_lt_two_pow (by omega)), show 2 ^ (k + 1) / 2 = 2 ^ k by omega, ih, List.range_succ_eq_map,
      List.map_cons, List.map_map]
    refine congrArg₂ _ (by simp) (List.map_congr_left fun s _ => ?_)
    simp only [Function.comp_apply, Prod.mk.injEq, Nat.succ_eq_add_one]
    refine ⟨by ring, by congr 1; omega⟩

theorem i1_pow (k tid : Nat) : i1 (2 ^ k) tid = 2 * 2 ^ k * (tid / 2 ^ k) + tid % 2 ^ k := by
  rw [i1, Nat.and_two_pow_sub_one_eq_mod]

theorem solo_butterfly (i j : Nat) (h : i ≠ j) (f : V → V → V × V) (m : Nat → V) (r : Regs V) (p : Nat) :
    (solo (butterfly i j f) (m, r)).1 p =
      if p = i then (f (m i) (m j)).1 else if p = j then (f (m i) (m j)).2 else m p := by
  simp only [solo, butterfly, List.foldl_cons, List.foldl_nil, Instr.run, Function.update]
  by_cases h1 : p = j
  · subst h1
    simp [Ne.symm h]
  · simp [h1]

/-- A loop over butterflies of distinct elements. `tidOf` gives the butterfly of an element. -/
theorem phase_pairs (n T c : Nat) (hT : 0 < T) (a b tidOf : Nat → Nat) (f : Nat → V → V → V × V)
    (h1 : ∀ tid, tid < T * c → a tid < n ∧ b tid < n ∧ a tid ≠ b tid ∧ tidOf (a tid) = tid ∧ tidOf (b tid) = tid)
    (h2 : ∀ p, p < n → tidOf p < T * c ∧ (p = a (tidOf p) ∨ p = b (tidOf p))) :
    Phase (fun t : Fin T => loop T c t fun tid => butterfly (a tid) (b tid) (f tid))
      (fun p => if p < n then some (⟨tidOf p % T, Nat.mod_lt _ hT⟩ : Fin T) else none)
      (fun p m => if p = a (tidOf p) then (f (tidOf p) (m (a (tidOf p))) (m (b (tidOf p)))).1
        else (f (tidOf p) (m (a (tidOf p))) (m (b (tidOf p)))).2) := by
  have lt : ∀ (t : Fin T) i, i < c → (t : Nat) + i * T < T * c := by
    intro t i hi
    have h := t.2
    have : (i + 1) * T ≤ c * T := Nat.mul_le_mul_right _ hi
    rw [Nat.add_mul, Nat.one_mul] at this
    rw [Nat.mul_comm T c]; omega
  have md : ∀ (t : Fin T) i, (⟨((t : Nat) + i * T) % T, Nat.mod_lt _ hT⟩ : Fin T) = t := by
    intro t i
    apply Fin.ext
    show ((t : Nat) + i * T) % T = t
    rw [Nat.add_mul_mod_self_right]
    exact Nat.mod_eq_of_lt t.2
  have inj : ∀ (t : Fin T) i j, (t : Nat) + i * T = t + j * T → i = j := by
    intro t i j h
    exact Nat.eq_of_mul_eq_mul_right hT (Nat.add_left_cancel h)
  constructor
  · intro t i hi
    obtain ⟨k, hk, hi⟩ := List.mem_flatMap.1 hi
    obtain ⟨g1, g2, g3, g4, g5⟩ := h1 _ (lt t k (List.mem_range.1 hk))
    simp only [butterfly, List.mem_cons, List.not_mem_nil, or_false] at hi
    rcases hi with rfl | rfl | rfl | rfl <;> simp only [Respects, g1, g2, g4, g5, if_true, md, true_or]
  · intro t m r p ho
    by_cases hp : p < n
    swap
    · rw [if_neg hp] at ho; cases ho
    rw [if_pos hp] at ho
    obtain ⟨q1, q2⟩ := h2 p hp
    have ht : tidOf p % T = t := congrArg Fin.val (Option.some.inj ho)
    have hc := solo_cells (fun k => butterfly (a ((t : Nat) + k * T)) (b (t + k * T)) (f (t + k * T)))
      (fun k p => p = a (t + k * T) ∨ p = b (t + k * T))
      (fun p m => if p = a (tidOf p) then (f (tidOf p) (m (a (tidOf p))) (m (b (tidOf p)))).1
        else (f (tidOf p) (m (a (tidOf p))) (m (b (tidOf p)))).2) (List.range c) List.nodup_range
      (by
        intro k hk m r p
        obtain ⟨g1, g2, g3, g4, g5⟩ := h1 _ (lt t k (List.mem_range.1 hk))
        rw [solo_butterfly _ _ g3]
        constructor
        · rintro (rfl | rfl)
          · simp only [g4, if_true]
          · simp only [g5, if_neg (Ne.symm g3), if_true]
        · intro h
          rw [not_or] at h
          rw [if_neg h.1, if_neg h.2])
      (by
        intro k hk p hp m m' hm
        obtain ⟨g1, g2, g3, g4, g5⟩ := h1 _ (lt t k (List.mem_range.1 hk))
        have e : tidOf p = t + k * T := by rcases hp with rfl | rfl <;> assumption
        have ha : ∀ j ∈ List.range c, (a (t + k * T) = a (t + j * T) ∨ a (t + k * T) = b (t + j * T)) → j = k := by
          intro j hj h
          obtain ⟨_, _, _, k4, k5⟩ := h1 _ (lt t j (List.mem_range.1 hj))
          apply inj t
          rcases h with h | h
          · rw [← g4, h, k4]
          · rw [← g4, h, k5]
        have hb : ∀ j ∈ List.range c, (b (t + k * T) = a (t + j * T) ∨ b (t + k * T) = b (t + j * T)) → j = k := by
          intro j hj h
          obtain ⟨_, _, _, k4, k5⟩ := h1 _ (lt t j (List.mem_range.1 hj))
          apply inj t
          rcases h with h | h
          · rw [← g5, h, k4]
          · rw [← g5, h, k5]
        simp only [e, hm _ ha, hm _ hb])
      (by
        intro k hk j hj p h h'
        obtain ⟨_, _, _, g4, g5⟩ := h1 _ (lt t k (List.mem_range.1 hk))
        obtain ⟨_, _, _, k4, k5⟩ := h1 _ (lt t j (List.mem_range.1 hj))
        have e1 : tidOf p = t + k * T := by rcases h with rfl | rfl <;> assumption
        have e2 : tidOf p = t + j * T := by rcases h' with rfl | rfl <;> assumption
        exact inj t _ _ (e1.symm.trans e2))
      m r p
    have e : tidOf p = t + (tidOf p / T) * T := by
      rw [← ht, Nat.add_comm]; exact (Nat.div_add_mod' _ _).symm
    refine hc.1 (tidOf p / T) (List.mem_range.2 ?_) ?_
    · exact Nat.div_lt_of_lt_mul q1
    · rw [← e]; exact q2

/-- The butterfly of element `p` at a level with distance `t`. -/
def tidAt (t p : Nat) : Nat := p / (2 * t) * t + p % (2 * t) % t

theorem tidAt_pair {t : Nat} (ht : 0 < t) (q r : Nat) (hr : r < t) :
    tidAt t (2 * t * q + r) = q * t + r ∧ tidAt t (2 * t * q + r + t) = q * t + r := by
  have h2 : 0 < 2 * t := by omega
  constructor
  · rw [tidAt, Nat.mul_add_div h2, Nat.mul_add_mod, Nat.div_eq_of_lt (by omega), Nat.mod_eq_of_lt (show r < 2 * t by omega),
      Nat.mod_eq_of_lt hr, Nat.add_zero]
  · rw [tidAt, Nat.add_assoc, Nat.mul_add_div h2, Nat.mul_add_mod, Nat.div_eq_of_lt (by omega),
      Nat.mod_eq_of_lt (show r + t < 2 * t by omega), Nat.add_mod_right, Nat.mod_eq_of_lt hr, Nat.add_zero]

/-- A level of butterflies of distance `t = 2^k` over `2 * t * g` elements. -/
theorem phase_level (k g T c : Nat) (hT : 0 < T) (hc : T * c = 2 ^ k * g) (f : Nat → V → V → V × V) :
    Phase (fun th : Fin T => loop T c th fun tid => butterfly (i1 (2 ^ k) tid) (i1 (2 ^ k) tid + 2 ^ k) (f tid))
      (fun p => if p < 2 * 2 ^ k * g then some (⟨tidAt (2 ^ k) p % T, Nat.mod_lt _ hT⟩ : Fin T) else none)
      (fun p m => level (2 ^ k) (fun tid _ => f tid) m p) := by
  have ht : 0 < 2 ^ k := Nat.two_pow_pos k
  have key := phase_pairs (2 * 2 ^ k * g) T c hT (i1 (2 ^ k)) (fun tid => i1 (2 ^ k) tid + 2 ^ k) (tidAt (2 ^ k)) f
    (by
      intro tid hl
      rw [hc] at hl
      have hq : tid / 2 ^ k < g := Nat.div_lt_of_lt_mul hl
      have hr : tid % 2 ^ k < 2 ^ k := Nat.mod_lt _ ht
      have hp := tidAt_pair ht (tid / 2 ^ k) (tid % 2 ^ k) hr
      rw [Nat.div_add_mod'] at hp
      simp only [i1_pow]
      have hm : 2 * 2 ^ k * (tid / 2 ^ k + 1) ≤ 2 * 2 ^ k * g := Nat.mul_le_mul_left _ hq
      rw [Nat.mul_add, Nat.mul_one] at hm
      refine ⟨by omega, by omega, by omega, hp.1, hp.2⟩)
    (by
      intro p hp
      have hq : p / (2 * 2 ^ k) < g := Nat.div_lt_of_lt_mul hp
      have hr : p % (2 * 2 ^ k) < 2 * 2 ^ k := Nat.mod_lt _ (by omega)
      have hs : p % (2 * 2 ^ k) % 2 ^ k < 2 ^ k := Nat.mod_lt _ ht
      have hm : 2 ^ k * (p / (2 * 2 ^ k) + 1) ≤ 2 ^ k * g := Nat.mul_le_mul_left _ hq
      rw [Nat.mul_add, Nat.mul_one] at hm
      have e1 : tidAt (2 ^ k) p / 2 ^ k = p / (2 * 2 ^ k) := by
        rw [tidAt, Nat.mul_comm, Nat.mul_add_div ht, Nat.div_eq_of_lt hs, Nat.add_zero]
      have e2 : tidAt (2 ^ k) p % 2 ^ k = p % (2 * 2 ^ k) % 2 ^ k := by
        rw [tidAt, Nat.mul_comm, Nat.mul_add_mod, Nat.mod_eq_of_lt hs]
      refine ⟨by rw [hc, tidAt, Nat.mul_comm (p / _)]; omega, ?_⟩
      simp only [i1_pow, e1, e2]
      have hd := Nat.div_add_mod p (2 * 2 ^ k)
      by_cases h : p % (2 * 2 ^ k) < 2 ^ k
      · left; rw [Nat.mod_eq_of_lt h]; exact hd.symm
      · right
        have : p % (2 * 2 ^ k) % 2 ^ k = p % (2 * 2 ^ k) - 2 ^ k := by
          rw [Nat.mod_eq_sub_mod (by omega), Nat.mod_eq_of_lt (by omega)]
        omega)
  refine ⟨key.respects, fun b m r p ho => (key.value b m r p ho).trans ?_⟩
  have hd := Nat.div_add_mod p (2 * 2 ^ k)
  have hr : p % (2 * 2 ^ k) < 2 * 2 ^ k := Nat.mod_lt _ (by omega)
  have hs : p % (2 * 2 ^ k) % 2 ^ k < 2 ^ k := Nat.mod_lt _ ht
  have e1 : tidAt (2 ^ k) p / 2 ^ k = p / (2 * 2 ^ k) := by
    rw [tidAt, Nat.mul_comm, Nat.mul_add_div ht, Nat.div_eq_of_lt hs, Nat.add_zero]
  have e2 : tidAt (2 ^ k) p % 2 ^ k = p % (2 * 2 ^ k) % 2 ^ k := by
    rw [tidAt, Nat.mul_comm, Nat.mul_add_mod, Nat.mod_eq_of_lt hs]
  simp only [i1_pow, e1, e2, level]
  by_cases h : p % (2 * 2 ^ k) < 2 ^ k
  · have e : 2 * 2 ^ k * (p / (2 * 2 ^ k)) + p % (2 * 2 ^ k) % 2 ^ k = p := by rw [Nat.mod_eq_of_lt h]; exact hd
    have e3 : tidAt (2 ^ k) p = p / (2 * 2 ^ k) * 2 ^ k + p % (2 * 2 ^ k) := by rw [tidAt, Nat.mod_eq_of_lt h]
    rw [e, if_pos rfl, if_pos h, e3]
  · have e0 : p % (2 * 2 ^ k) % 2 ^ k = p % (2 * 2 ^ k) - 2 ^ k := by
      rw [Nat.mod_eq_sub_mod (by omega), Nat.mod_eq_of_lt (by omega)]
    have e : 2 * 2 ^ k * (p / (2 * 2 ^ k)) + p % (2 * 2 ^ k) % 2 ^ k = p - 2 ^ k := by omega
    have e3 : tidAt (2 ^ k) p = p / (2 * 2 ^ k) * 2 ^ k + (p % (2 * 2 ^ k) - 2 ^ k) := by rw [tidAt, e0]
    have hp : 2 ^ k ≤ p := by omega
    rw [e, if_neg (by omega), if_neg h, e3, Nat.sub_add_cancel hp]

/-- The first level: a single group. -/
theorem i1_first {k tid : Nat} (h : tid < 2 ^ k) : i1 (2 ^ k) tid = tid := by
  rw [i1_pow, Nat.div_eq_of_lt h, Nat.mod_eq_of_lt h]; omega

theorem level_congr (t : Nat) (f g : Nat → Nat → V → V → V × V) (A B : Nat → V) (n p : Nat) (ht : 0 < t)
    (hn : 2 * t ∣ n) (hp : p < n) (hf : ∀ tid q, tid / t = q → f tid q = g tid q) (h : ∀ p < n, A p = B p) :
    level t f A p = level t g B p := by
  obtain ⟨j, rfl⟩ := hn
  have hq : p / (2 * t) < j := Nat.div_lt_of_lt_mul hp
  have hd := Nat.div_add_mod p (2 * t)
  have hr : p % (2 * t) < 2 * t := Nat.mod_lt _ (by omega)
  have hm : 2 * t * (p / (2 * t) + 1) ≤ 2 * t * j := Nat.mul_le_mul_left _ hq
  rw [Nat.mul_add, Nat.mul_one] at hm
  simp only [level]
  have e : ∀ s, s < t → (p / (2 * t) * t + s) / t = p / (2 * t) := by
    intro s hs
    rw [Nat.mul_comm, Nat.mul_add_div ht, Nat.div_eq_of_lt hs, Nat.add_zero]
  split
  · rename_i hlt
    rw [h p hp, h (p + t) (by omega), hf _ _ (e _ hlt)]
  · rw [h p hp, h (p - t) (by omega), hf _ _ (e _ (by omega))]

theorem synced_segments (a : List (Instr Nat V (Regs V))) (c : List (Op Nat V (Regs V))) :
    segments (synced a ++ c) = a :: segments c := by
  induction a with
  | nil => rfl
  | cons i a ih =>
    show segments (.instr i :: (synced a ++ c)) = _
    rw [segments, ih]

theorem segments_synced {α : Type} (xs : List α) (f : α → List (Instr Nat V (Regs V))) :
    segments (xs.flatMap fun x => synced (f x)) = xs.map f ++ [[]] := by
  induction xs with
  | nil => rfl
  | cons x xs ih => rw [List.flatMap_cons, synced_segments, ih]; rfl

/-- The loop that scales the elements. -/
theorem phase_scale (ops : Ops V) (n T c : Nat) (hT : 0 < T) (hn : n = T * (2 * c)) :
    Phase (fun th : Fin T => scaleCode ops n T c th)
      (fun p => if p < n then some (⟨p % T, Nat.mod_lt _ hT⟩ : Fin T) else none)
      (fun p m => ops.scale n p (m p)) := by
  have lt : ∀ (t : Fin T) i, i < 2 * c → (t : Nat) + i * T < n := by
    intro t i hi
    have h := t.2
    have : (i + 1) * T ≤ 2 * c * T := Nat.mul_le_mul_right _ hi
    rw [Nat.add_mul, Nat.one_mul] at this
    rw [hn, Nat.mul_comm T (2 * c)]; omega
  have md : ∀ (t : Fin T) i, (⟨((t : Nat) + i * T) % T, Nat.mod_lt _ hT⟩ : Fin T) = t := by
    intro t i
    apply Fin.ext
    show ((t : Nat) + i * T) % T = t
    rw [Nat.add_mul_mod_self_right]
    exact Nat.mod_eq_of_lt t.2
  have inj : ∀ (t : Fin T) i j, (t : Nat) + i * T = t + j * T → i = j := by
    intro t i j h
    exact Nat.eq_of_mul_eq_mul_right hT (Nat.add_left_cancel h)
  constructor
  · intro t i hi
    obtain ⟨k, hk, hi⟩ := List.mem_flatMap.1 hi
    have g1 := lt t k (List.mem_range.1 hk)
    simp only [List.mem_cons, List.not_mem_nil, or_false] at hi
    rcases hi with rfl | rfl <;> simp only [Respects, g1, if_true, md, true_or]
  · intro t m r p ho
    by_cases hp : p < n
    swap
    · rw [if_neg hp] at ho; cases ho
    rw [if_pos hp] at ho
    have ht : p % T = t := congrArg Fin.val (Option.some.inj ho)
    have hc := solo_cells (fun k => [.read ((t : Nat) + k * T) fun v x => (v, x.2),
        .write (t + k * T) fun x => ops.scale n (t + k * T) x.1])
      (fun k p => p = t + k * T) (fun p m => ops.scale n p (m p)) (List.range (2 * c)) List.nodup_range
      (by
        intro k _ m r p
        constructor
        · rintro rfl
          simp [solo, Instr.run]
        · intro h
          simp [solo, Instr.run, h])
      (by
        rintro k _ p rfl m m' hm
        rw [hm _ fun j _ h => (inj t _ _ h).symm])
      (by
        rintro k _ j _ p rfl h
        exact inj t _ _ h)
      m r p
    have e : p = t + (p / T) * T := by
      rw [← ht, Nat.add_comm]; exact (Nat.div_add_mod' _ _).symm
    refine hc.1 (p / T) (List.mem_range.2 ?_) e
    exact Nat.div_lt_of_lt_mul (hn ▸ hp)

/-- Phases that change the elements below `n` only, one after the other. -/
theorem run_levels {T : Nat} [Nonempty (Fin T)] {α : Type} (n : Nat) (xs : List α)
    (code : α → Nat → List (Instr Nat V (Regs V))) (own : α → Nat → Option (Fin T)) (F : α → (Nat → V) → Nat → V)
    (hp : ∀ x ∈ xs, Phase (fun th : Fin T => code x th) (own x) (fun p m => F x m p))
    (ho : ∀ x ∈ xs, ∀ p, (own x p).isSome = decide (p < n))
    (hF : ∀ x ∈ xs, ∀ A B : Nat → V, (∀ p < n, A p = B p) → ∀ p < n, F x A p = F x B p)
    (prog : Fin T → Prog Nat V (Regs V)) (hprog : ∀ b : Fin T, prog b = xs.map (fun x => code x b) ++ [[]])
    (m : Nat → V) (r : Fin T → Regs V) (bs : List (Fin T)) (hd : Done prog (run prog bs (start prog m r))) (p : Nat) :
    (run prog bs (start prog m r)).mem p = if p < n then xs.foldl (fun A x => F x A) m p else m p := by
  have h := run_phases (xs.map (fun x => (fun th : Fin T => code x th, own x, fun p m => F x m p)) ++
      [((fun _ => []), (fun _ => none), fun p m => m p)]) (by
      intro q hq
      rcases List.mem_append.1 hq with hq | hq
      · obtain ⟨x, hx, rfl⟩ := List.mem_map.1 hq
        exact hp x hx
      · rw [List.mem_singleton.1 hq]
        exact ⟨fun _ _ h => by simp at h, fun _ _ _ _ h => by simp at h⟩) prog (by
      intro b
      rw [hprog, List.map_append, List.map_map]; rfl) m r bs hd
  rw [h, List.foldl_append, List.foldl_map]
  have hlast : ∀ A : Nat → V, Phase.effect (B := Fin T) (fun _ : Nat => none) (fun p m => m p) A = A := by
    intro A; funext p; rfl
  simp only [List.foldl_cons, List.foldl_nil, hlast]
  clear h hprog hd
  have key : ∀ (xs' : List α), (∀ x ∈ xs', x ∈ xs) → ∀ A B : Nat → V, (∀ p < n, A p = B p) → (∀ p, ¬ p < n → A p = m p) →
      xs'.foldl (fun m x => Phase.effect (own x) (fun p m => F x m p) m) A p =
        if p < n then xs'.foldl (fun A x => F x A) B p else m p := by
    intro xs'
    induction xs' with
    | nil =>
      intro _ A B h1 h2
      by_cases hpn : p < n
      · rw [if_pos hpn]; exact h1 p hpn
      · rw [if_neg hpn]; exact h2 p hpn
    | cons x xs' ih =>
      intro hx A B h1 h2
      rw [List.foldl_cons, List.foldl_cons]
      have hx0 := hx x List.mem_cons_self
      refine ih (fun y hy => hx y (List.mem_cons_of_mem _ hy)) _ _ ?_ ?_
      · intro p hpn
        rw [Phase.effect, ho x hx0, if_pos (by simpa using hpn)]
        exact hF x hx0 _ _ h1 p hpn
      · intro p hpn
        rw [Phase.effect, ho x hx0, if_neg (by simpa using hpn)]
        exact h2 p hpn
  exact key xs (fun x h => h) m m (fun _ _ => rfl) (fun _ _ => rfl)

/-- The stretches of code of a transform. -/
inductive Seg where
  | first
  | scale
  | fwd (t m : Nat)
  | inv (t m : Nat)

def Seg.code (ops : Ops V) (tw : Nat → V) (n T c : Nat) : Seg → Nat → List (Instr Nat V (Regs V))
  | .first, th => firstCode ops n T c th
  | .scale, th => scaleCode ops n T c th
  | .fwd t m, th => fwdCode ops tw t m T c th
  | .inv t m, th => invCode ops tw t m T c th

def Seg.effect (ops : Ops V) (tw : Nat → V) (n : Nat) : Seg → (Nat → V) → Nat → V
  | .first, A => level (n / 2) (fun tid _ => ops.first tid) A
  | .scale, A => fun p => ops.scale n p (A p)
  | .fwd t m, A => level t (fun tid q => ops.fwd m tid (tw (q + m))) A
  | .inv t m, A => level t (fun tid q => ops.inv m tid (tw (q + m))) A

/-- The distances are powers of two below `n`. -/
def Seg.Ok (K : Nat) : Seg → Prop
  | .fwd t _ | .inv t _ => ∃ k < K, t = 2 ^ k
  | _ => True

theorem Seg.phase (ops : Ops V) (tw : Nat → V) (K T c : Nat) (hT : 0 < T) (hn : 2 ^ (K + 1) = 2 * (T * c)) (s : Seg)
    (hs : s.Ok (K + 1)) : ∃ own : Nat → Option (Fin T), (∀ p, (own p).isSome = decide (p < 2 ^ (K + 1))) ∧
      Phase (fun th : Fin T => s.code ops tw (2 ^ (K + 1)) T c th) own (fun p m => s.effect ops tw (2 ^ (K + 1)) m p) := by
  have hsome : ∀ (n : Nat) (f : Nat → Fin T) p, (if p < n then some (f p) else none).isSome = decide (p < n) := by
    intro n f p
    by_cases h : p < n <;> simp [h]
  have hTc : T * c = 2 ^ K := by rw [Nat.pow_succ] at hn; omega
  have lev : ∀ k < K + 1, ∀ f : Nat → Nat → V → V → V × V, ∃ own : Nat → Option (Fin T),
      (∀ p, (own p).isSome = decide (p < 2 ^ (K + 1))) ∧
      Phase (fun th : Fin T => loop T c th fun tid => butterfly (i1 (2 ^ k) tid) (i1 (2 ^ k) tid + 2 ^ k)
        (f tid (tid / 2 ^ k))) own (fun p m => level (2 ^ k) f m p) := by
    intro k hk f
    have hg : 2 ^ k * 2 ^ (K - k) = 2 ^ K := by rw [← Nat.pow_add]; congr 1; omega
    have hg2 : 2 * 2 ^ k * 2 ^ (K - k) = 2 ^ (K + 1) := by rw [Nat.mul_assoc, hg, Nat.pow_succ]; omega
    have h := phase_level k (2 ^ (K - k)) T c hT (by rw [hg, hTc]) (fun tid => f tid (tid / 2 ^ k))
    rw [hg2] at h
    refine ⟨_, hsome _ _, h.respects, fun b m r p ho => (h.value b m r p ho).trans ?_⟩
    by_cases hp : p < 2 ^ (K + 1)
    · exact level_congr _ _ _ m m _ p (Nat.two_pow_pos k) ⟨_, hg2.symm⟩ hp (fun tid q hq => by rw [hq]) fun _ _ => rfl
    · rw [if_neg hp] at ho; cases ho
  cases s with
  | scale => exact ⟨_, hsome _ _, phase_scale ops _ T c hT (by rw [hn]; ring)⟩
  | fwd t m =>
    obtain ⟨k, hk, rfl⟩ := hs
    exact lev k hk fun tid q => ops.fwd m tid (tw (q + m))
  | inv t m =>
    obtain ⟨k, hk, rfl⟩ := hs
    exact lev k hk fun tid q => ops.inv m tid (tw (q + m))
  | first =>
    have h2 : 2 ^ (K + 1) / 2 = 2 ^ K := by rw [Nat.pow_succ]; omega
    obtain ⟨own, h1, h3⟩ := lev K (by omega) fun tid _ => ops.first tid
    have hcode : ∀ th : Fin T, Seg.code ops tw (2 ^ (K + 1)) T c .first th = loop T c th fun tid =>
        butterfly (i1 (2 ^ K) tid) (i1 (2 ^ K) tid + 2 ^ K) (ops.first tid) := by
      intro th
      simp only [Seg.code, firstCode, loop, h2]
      refine List.flatMap_congr fun i hi => ?_
      have : (th : Nat) + i * T < 2 ^ K := by
        have h := th.2
        have : (i + 1) * T ≤ c * T := Nat.mul_le_mul_right _ (List.mem_range.1 hi)
        rw [Nat.add_mul, Nat.one_mul] at this
        rw [← hTc, Nat.mul_comm T c]; omega
      rw [i1_first this]
    refine ⟨own, h1, ?_⟩
    simp only [hcode, Seg.effect, h2]
    exact h3

theorem Seg.effect_congr (ops : Ops V) (tw : Nat → V) (K : Nat) (s : Seg) (hs : s.Ok (K + 1)) (A B : Nat → V)
    (h : ∀ p < 2 ^ (K + 1), A p = B p) (p : Nat) (hp : p < 2 ^ (K + 1)) :
    s.effect ops tw (2 ^ (K + 1)) A p = s.effect ops tw (2 ^ (K + 1)) B p := by
  have lev : ∀ k < K + 1, ∀ f : Nat → Nat → V → V → V × V, level (2 ^ k) f A p = level (2 ^ k) f B p := by
    intro k hk f
    refine level_congr _ _ _ A B _ p (Nat.two_pow_pos k) ⟨2 ^ (K - k), ?_⟩ hp (fun _ _ _ => rfl) h
    rw [Nat.mul_assoc, ← Nat.pow_add, Nat.pow_succ, Nat.mul_comm]
    congr 2; omega
  have h2 : 2 ^ (K + 1) / 2 = 2 ^ K := by rw [Nat.pow_succ]; omega
  cases s with
  | scale => simp only [Seg.effect]; rw [h p hp]
  | fwd t m => obtain ⟨k, hk, rfl⟩ := hs; simp only [Seg.effect]; exact lev k hk _
  | inv t m => obtain ⟨k, hk, rfl⟩ := hs; simp only [Seg.effect]; exact lev k hk _
  | first => simp only [Seg.effect, h2]; exact lev K (by omega) _

/-- Any run of stretches of code separated by barriers. -/
theorem run_segs {T : Nat} (ops : Ops V) (tw : Nat → V) (K c : Nat) (hT : 0 < T) (hn : 2 ^ (K + 1) = 2 * (T * c))
    (xs : List Seg) (hx : ∀ s ∈ xs, s.Ok (K + 1)) (prog : Fin T → Prog Nat V (Regs V))
    (hprog : ∀ b : Fin T, prog b = xs.map (fun s => s.code ops tw (2 ^ (K + 1)) T c b) ++ [[]])
    (m : Nat → V) (r : Fin T → Regs V) (bs : List (Fin T)) (hd : Done prog (run prog bs (start prog m r))) (p : Nat) :
    (run prog bs (start prog m r)).mem p =
      if p < 2 ^ (K + 1) then xs.foldl (fun A s => s.effect ops tw (2 ^ (K + 1)) A) m p else m p := by
  have : Nonempty (Fin T) := ⟨⟨0, hT⟩⟩
  classical
  let own : Seg → Nat → Option (Fin T) := fun s =>
    if h : s.Ok (K + 1) then (Seg.phase ops tw K T c hT hn s h).choose else fun _ => none
  have hown : ∀ s (h : s.Ok (K + 1)), own s = (Seg.phase ops tw K T c hT hn s h).choose := fun s h => dif_pos h
  refine run_levels (2 ^ (K + 1)) xs (fun s => s.code ops tw (2 ^ (K + 1)) T c) own
    (fun s A => s.effect ops tw (2 ^ (K + 1)) A) ?_ ?_ ?_ prog hprog m r bs hd p
  · intro s hs
    rw [hown s (hx s hs)]
    exact (Seg.phase ops tw K T c hT hn s (hx s hs)).choose_spec.2
  · intro s hs
    rw [hown s (hx s hs)]
    exact (Seg.phase ops tw K T c hT hn s (hx s hs)).choose_spec.1
  · intro s hs A B h p hp
    exact Seg.effect_congr ops tw K s (hx s hs) A B h p hp

def directSegs (n : Nat) : List Seg := .first :: (fwdLevels (n / 2) 1).map fun x => .fwd x.1 x.2

def inverseSegs (n : Nat) : List Seg := .scale :: (invLevels n 1).map fun x => .inv x.1 x.2

theorem direct_segs (ops : Ops V) (tw : Nat → V) (n : Nat) (A : Nat → V) :
    (directSegs n).foldl (fun A s => s.effect ops tw n A) A = direct ops tw n A := by
  rw [directSegs, List.foldl_cons, List.foldl_map]; rfl

theorem inverse_segs (ops : Ops V) (tw : Nat → V) (n : Nat) (A : Nat → V) :
    (inverseSegs n).foldl (fun A s => s.effect ops tw n A) A = inverse ops tw n A := by
  rw [inverseSegs, List.foldl_cons, List.foldl_map]; rfl

theorem directSegs_ok (K : Nat) : ∀ s ∈ directSegs (2 ^ (K + 1)), s.Ok (K + 1) := by
  intro s hs
  rw [directSegs, show 2 ^ (K + 1) / 2 = 2 ^ K by rw [Nat.pow_succ]; omega, fwdLevels_pow] at hs
  rcases List.mem_cons.1 hs with rfl | hs
  · trivial
  · obtain ⟨x, hx, rfl⟩ := List.mem_map.1 hs
    obtain ⟨j, hj, rfl⟩ := List.mem_map.1 hx
    exact ⟨_, by omega, rfl⟩

theorem inverseSegs_ok (K : Nat) : ∀ s ∈ inverseSegs (2 ^ (K + 1)), s.Ok (K + 1) := by
  intro s hs
  rw [inverseSegs, invLevels_pow] at hs
  rcases List.mem_cons.1 hs with rfl | hs
  · trivial
  · obtain ⟨x, hx, rfl⟩ := List.mem_map.1 hs
    obtain ⟨j, hj, rfl⟩ := List.mem_map.1 hx
    exact ⟨j, List.mem_range.1 hj, Nat.mul_one _⟩

theorem directProg_eq (ops : Ops V) (tw : Nat → V) (n T c : Nat) (b : Fin T) :
    directProg ops tw n T c b = (directSegs n).map (fun s => s.code ops tw n T c b) ++ [[]] := by
  rw [directProg, directCode, synced_segments, segments_synced, directSegs, List.map_cons, List.map_map]; rfl

theorem inverseProg_eq (ops : Ops V) (tw : Nat → V) (n T c : Nat) (b : Fin T) :
    inverseProg ops tw n T c b = (inverseSegs n).map (fun s => s.code ops tw n T c b) ++ [[]] := by
  rw [inverseProg, inverseCode, synced_segments, segments_synced, inverseSegs, List.map_cons, List.map_map]; rfl

end Verif.Cuda.Nsm
