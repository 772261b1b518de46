import Verif.Cuda.PbsLowRace
import Mathlib.Algebra.BigOperators.Intervals
/-
C76: the communication of the blocks of the low latency bootstrap of CUDA, for all schedules of the blocks.

`d` is the LWE dimension of the input, `k` the GLWE dimension, `l` the number of levels and `n` the number of input
ciphertexts; `K` is what the blocks compute on their own. `m` is the content of the join buffers at the start, which
are not initialised, and `r` the arrays of the blocks at the start. A schedule is the list of the blocks in the order in
which they move; `accAt`, in PbsLowSpec, says what the accumulators should be.
-/
namespace Verif.Cuda.Low
open Grid

variable {P A : Type}

/-- C76, proved part: every schedule that runs all blocks to their end, and in which no block writes a place of the
join buffers that another block has still to read before the next barrier, leaves in the accumulators what the
specification says, whatever the join buffers held before. Missing: the other schedules, for which the code violates it
(`C76_race_violated`, `C76_result_violated`). -/
theorem C76_low_latency_partial (K : Kernel P A) (d k l n : Nat)
    (acc0 : Nat → Nat → Nat → A) (m : Place → P) (r : Block k l n → Regs P A)
    (hr : ∀ b, (r b).acc = acc0 b.1 b.2.1 b.2.2) (sched : List (Block k l n))
    (hc : Calm (program K d k l n) sched (start (program K d k l n) m r))
    (hd : Done (program K d k l n) (run (program K d k l n) sched (start (program K d k l n) m r)))
    (b : Block k l n) :
    ((run (program K d k l n) sched (start (program K d k l n) m r)).blk b).own.acc =
      accAt K k l acc0 d b.1 b.2.1 b.2.2 := by
  rw [run_done (program K d k l n) (owner d k l n) m r (one_writer K d k l n) sched hc hd b, program_length]
  exact after_end K d k l n acc0 m r hr b

/-- C76 for one level, or for an input with at most one mask element: every schedule that runs all blocks to their end
leaves in the accumulators what the specification says. -/
theorem C76_one_level (K : Kernel P A) (d k l n : Nat) (hld : l ≤ 1 ∨ d ≤ 1)
    (acc0 : Nat → Nat → Nat → A) (m : Place → P) (r : Block k l n → Regs P A)
    (hr : ∀ b, (r b).acc = acc0 b.1 b.2.1 b.2.2) (sched : List (Block k l n))
    (hd : Done (program K d k l n) (run (program K d k l n) sched (start (program K d k l n) m r)))
    (b : Block k l n) :
    ((run (program K d k l n) sched (start (program K d k l n) m r)).blk b).own.acc =
      accAt K k l acc0 d b.1 b.2.1 b.2.2 :=
  C76_low_latency_partial K d k l n acc0 m r hr sched
    (calm_of_raceFree _ (owner d k l n) (race_free K d k l n hld) sched _ (start_partway _ m r)) hd b

/-- C76, no schedule blocks: every run of the blocks, for all parameters, can be continued until all blocks have reached
their end. -/
theorem C76_no_deadlock (K : Kernel P A) (d k l n : Nat) (m : Place → P) (r : Block k l n → Regs P A)
    (sched : List (Block k l n)) :
    ∃ more, Done (program K d k l n)
      (run (program K d k l n) (sched ++ more) (start (program K d k l n) m r)) := by
  obtain ⟨E, h⟩ := run_follows (program K d k l n) sched _ 0
    (start_follows _ (fun b => segments_ne _) m r)
  obtain ⟨more, hm⟩ := run_finishes (program K d k l n) _ (program_length K d k l n) _ _ E h le_rfl
  exact ⟨more, by rw [run_append]; exact hm⟩

/-- In exact arithmetic the specification is the external product: the sum of the contributions of all polynomials at
all levels. -/
theorem C76_external [AddCommMonoid P] (K : Kernel P A) (hadd : ∀ a b, K.add a b = a + b) (k l : Nat) (hl : 0 < l)
    (acc : Nat → Nat → Nat → A) (i z c : Nat) (hc : c ≤ k) :
    external K k l acc i z c = ∑ v ∈ Finset.range l, ∑ y ∈ Finset.range (k + 1), product K acc i z v y c := by
  have fold : ∀ (f : Nat → P) (a : P) (m : Nat), (List.range m).foldl (fun s j => K.add s (f j)) a =
      a + ∑ j ∈ Finset.range m, f j := by
    intro f a m
    induction m with
    | zero => simp
    | succ m ih => rw [List.range_succ, List.foldl_append, ih, Finset.sum_range_succ, ← add_assoc]; simp [hadd]
  have hj : ∀ v, joined K k acc i z v c = ∑ y ∈ Finset.range (k + 1), product K acc i z v y c := by
    intro v
    rw [joined, fold]
    have e0 : product K acc i z v c c = product K acc i z v ((c + (k + 1) - 0) % (k + 1)) c := by
      rw [Nat.sub_zero, Nat.add_mod_right, Nat.mod_eq_of_lt (by omega)]
    rw [e0, add_comm, ← Finset.sum_range_succ' (fun j => product K acc i z v ((c + (k + 1) - j) % (k + 1)) c)]
    refine Finset.sum_bij' (fun j _ => (c + (k + 1) - j) % (k + 1)) (fun y _ => (c + (k + 1) - y) % (k + 1))
      ?_ ?_ ?_ ?_ ?_
    · intro j _; exact Finset.mem_range.mpr (Nat.mod_lt _ (Nat.succ_pos k))
    · intro j _; exact Finset.mem_range.mpr (Nat.mod_lt _ (Nat.succ_pos k))
    · intro j hj
      rw [Finset.mem_range] at hj
      exact twice k c j hc (by omega)
    · intro j hj
      rw [Finset.mem_range] at hj
      exact twice k c j hc (by omega)
    · intro j _; rfl
  obtain ⟨l, rfl⟩ := Nat.exists_eq_succ_of_ne_zero hl.ne'
  rw [external, fold, Finset.sum_range_succ', add_comm]
  simp only [hj, Nat.succ_eq_add_one, Nat.add_sub_cancel]

/-- C76, every level computes the same: if the blocks of all levels start with the same accumulator, as the kernel makes
them, they end with the same one. -/
theorem C76_levels_agree (K : Kernel P A) (k l : Nat) (acc0 : Nat → Nat → Nat → A)
    (h : ∀ x x' y z, acc0 x y z = acc0 x' y z) (i x x' y z : Nat) :
    accAt K k l acc0 i x y z = accAt K k l acc0 i x' y z := by
  induction i with
  | zero => exact h x x' y z
  | succ i ih => rw [accAt, accAt, ih]

/-- C76 is violated, the race: with two levels or more and two mask elements or more, in every iteration but the last one
there is, for all levels `x ≠ x'`, a schedule after which block `(x, y, z)` is about to write, for the next iteration, the
place of the join buffer that block `(x', y, z)` is about to read for the present one. -/
theorem C76_race_violated (K : Kernel P A) (d k l n i : Nat) (hi : i + 1 < d) (m : Place → P)
    (r : Block k l n → Regs P A) (x x' : Fin l) (hx : x ≠ x') (y : Fin (k + 1)) (z : Fin n) :
    ∃ sched, ∃ f g t u,
      ((run (program K d k l n) sched (start (program K d k l n) m r)).blk (x', y, z)).rest =
        Instr.read ((z : Nat), (x : Nat), (y : Nat)) f :: t ∧
      ((run (program K d k l n) sched (start (program K d k l n) m r)).blk (x, y, z)).rest =
        Instr.write ((z : Nat), (x : Nat), (y : Nat)) g :: u := by
  have hlen := program_length K d k l n
  have hlt : (i + 1) * (k + 1) < d * (k + 1) := Nat.mul_lt_mul_of_pos_right hi (Nat.succ_pos k)
  have hpos : 0 < (i + 1) * (k + 1) := by positivity
  obtain ⟨sch, h⟩ := run_to (program K d k l n) m r ((i + 1) * (k + 1) - 1) (fun b => by rw [hlen]; omega)
  have hseg : ∀ b : Block k l n, (program K d k l n b)[(i + 1) * (k + 1) - 1 + 1]? =
      some (collect K l b.2.1 b.2.2 ++ opening K b.1 b.2.1 b.2.2 (i + 1)) := by
    intro b
    have e : (i + 1) * (k + 1) - 1 + 1 = (i + 1) * (k + 1) := by omega
    rw [e, program_eq, tail_open _ _ _ _ _ _ _ _ _ _ hi]
    simp
  have hcl : ∀ y z, (collect K l y z).length = l + 1 := by
    intro y z
    have := x.2
    simp only [collect, List.length_cons, List.length_append, List.length_map, List.length_range, List.length_nil]
    omega
  set s := run (program K d k l n) sch (start (program K d k l n) m r) with hs
  obtain ⟨h1, h2, h3⟩ := run_pass (program K d k l n) s (x', y, z) _ x _ (h _).1 (h _).2 (hseg _)
    (fun c => .inl (h c)) (by rw [List.length_append, hcl]; omega)
  set s' := run (program K d k l n) (List.replicate (x + 1) (x', y, z)) s with hs'
  have hne : (x, y, z) ≠ (x', y, z) := fun e => hx (by injection e)
  obtain ⟨h4, h5, h6⟩ := run_pass (program K d k l n) s' (x, y, z) _ (l + 2) _ (by rw [h3 _ hne]; exact (h _).1)
    (by rw [h3 _ hne]; exact (h _).2) (hseg _)
    (fun c => by
      by_cases hc : c = (x', y, z)
      · rw [hc]; exact .inr h1
      · rw [h3 c hc]; exact .inl (h c)) (by rw [List.length_append, hcl]; simp [opening])
  obtain ⟨f, t', hf⟩ := collect_drop K l y z x x.2
  have hft : (collect K l y z ++ opening K x' y z (i + 1)).drop x =
      Instr.read ((z : Nat), (x : Nat), (y : Nat)) f :: (t' ++ opening K x' y z (i + 1)) := by
    rw [List.drop_append_of_le_length (by rw [hcl]; omega), hf]; rfl
  have hwrite : (collect K l y z ++ opening K x y z (i + 1)).drop (l + 2) =
      [.write ((z : Nat), (x : Nat), (y : Nat)) fun r => K.mul (i + 1) x y y r.fft] := by
    rw [List.drop_append, List.drop_eq_nil_of_le (by rw [hcl]; omega), hcl]
    have : l + 2 - (l + 1) = 1 := by omega
    rw [this]
    rfl
  refine ⟨sch ++ List.replicate (x + 1) (x', y, z) ++ List.replicate (l + 2 + 1) (x, y, z), f,
    fun r => K.mul (i + 1) x y y r.fft, t' ++ opening K x' y z (i + 1), [], ?_, ?_⟩
  · rw [run_append, run_append, ← hs, ← hs', h6 _ hne.symm, h2]
    exact hft
  · rw [run_append, run_append, ← hs, ← hs', h5]
    exact hwrite

/-- A small kernel for the examples: every computation is an addition of integers. -/
def sumKernel : Kernel Int Int := ⟨fun _ _ _ _ a => a, fun _ _ _ _ p => p, (· + ·), (· + ·)⟩

/-- The blocks at the start of the examples. -/
def ones (k l n : Nat) (_ : Block k l n) : Regs Int Int := ⟨1, 0, 0⟩

/-- A schedule for two levels, one polynomial and two mask elements in which the two blocks move together. -/
def together : List (Block 0 2 1) := (List.replicate 20 [(0, 0, 0), (1, 0, 0)]).flatten

/-- A schedule in which the block of level 0 goes to its second iteration first. -/
def ahead : List (Block 0 2 1) :=
  (0, 0, 0) :: (0, 0, 0) :: (1, 0, 0) :: (1, 0, 0) :: (List.replicate 6 (0, 0, 0) ++ together)

/-- C76 is violated, the result: two schedules that run all blocks to the end leave different accumulators. The first one
gives what the specification says. -/
theorem C76_result_violated :
    let p := program sumKernel 2 0 2 1
    let fin := fun sched => run p sched (start p (fun _ => 0) (ones 0 2 1))
    Done p (fin together) ∧ Done p (fin ahead) ∧
    (∀ b, ((fin together).blk b).own.acc = accAt sumKernel 0 2 (fun _ _ _ => 1) 2 b.1 b.2.1 b.2.2) ∧
    ((fin ahead).blk (1, 0, 0)).own.acc ≠ accAt sumKernel 0 2 (fun _ _ _ => 1) 2 1 0 0 := by
  refine ⟨?_, ?_, ?_, ?_⟩
  · unfold Done DoneAt; decide +kernel
  · unfold Done DoneAt; decide +kernel
  · decide +kernel
  · decide +kernel

instance calmDec {B Loc V L : Type} [DecidableEq B] [Fintype B] [DecidableEq Loc] (prog : B → Prog Loc V L) :
    ∀ (bs : List B) (s : State B Loc V L), Decidable (Calm prog bs s)
  | [], _ => isTrue trivial
  | b :: bs, s =>
    have := calmDec prog bs (step prog s b)
    have : Decidable (match nextWrite s b with
      | none => True
      | some ℓ => ∀ c, c ≠ b → pending prog s (s.blk b).epoch c ℓ = false) := by
      cases nextWrite s b
      · exact isTrue trivial
      · exact inferInstanceAs (Decidable (∀ c, c ≠ b → _))
    inferInstanceAs (Decidable (_ ∧ _))

/-- The hypotheses of C76_low_latency_partial are met with two levels and two mask elements; the schedule `ahead` is not
calm. -/
example : Calm (program sumKernel 2 0 2 1) together (start (program sumKernel 2 0 2 1) (fun _ => 0) (ones 0 2 1)) ∧
    ¬ Calm (program sumKernel 2 0 2 1) ahead (start (program sumKernel 2 0 2 1) (fun _ => 0) (ones 0 2 1)) := by
  decide +kernel

/-- The hypotheses of C76_one_level are met by a schedule for one level, three polynomials, two ciphertexts and two
mask elements. -/
example : let p := program sumKernel 2 2 1 2
    let s := run p (List.replicate 20 Finset.univ.toList).flatten (start p (fun _ => 7) (ones 2 1 2))
    ∃ more, Done p (run p more s) ∧ ((run p more s).blk (0, 1, 1)).own.acc =
      accAt sumKernel 2 1 (fun _ _ _ => 1) 2 0 1 1 := by
  intro p s
  obtain ⟨more, h⟩ := C76_no_deadlock sumKernel 2 2 1 2 (fun _ => 7) (ones 2 1 2)
    (List.replicate 20 Finset.univ.toList).flatten
  have hr := C76_one_level sumKernel 2 2 1 2 (.inl le_rfl) (fun _ _ _ => 1) (fun _ => 7) (ones 2 1 2)
    (fun _ => rfl) _ h (0, 1, 1)
  rw [run_append] at h hr
  exact ⟨more, h, hr⟩

/-- What it says there: the two iterations multiply the sum of the accumulators by 4. -/
example : accAt sumKernel 2 1 (fun _ _ _ => 1) 2 0 1 1 = 16 := by decide +kernel

end Verif.Cuda.Low
