import Verif.Csprng.Reach
/-
Property theorems C01-C07 (random generator).
-/
namespace Verif.Csprng
open TableIndex

section
variable {α : Type} [Inhabited α]

/-! ## C01 -/

/-- C01. A generator created on `[start, bound)` returns, whatever the number `n` of calls, the table
bytes `start, start+1, ...` up to `bound - 1`, then `None`. (In a debug build the counters of the last
batch must not overflow `u128`, hence the side condition; see `C01_debug_panics_near_table_end`.) -/
theorem C01_generator_outputs_table_slice (m : Build) (aes : Cipher α) (start bound : TableIndex)
    (hs : start.WF) (hb : bound.WF) (h0 : start ≠ FIRST) (hlt : start.pos < bound.pos)
    (hovf : m = .release ∨ bound.pos + 127 ≤ TABLE) :
    ∃ g : Gen α, fromBlockCipher start bound = some g ∧
      ∀ n, ∃ g', g.draw m aes n = some (expectedDraws aes start.pos bound.pos n, g') := by
  have hp : 0 < start.pos := by
    rcases Nat.eq_zero_or_pos start.pos with h | h
    · exact absurd (pos_inj hs FIRST_WF (by rw [h, FIRST_pos])) h0
    · exact h
  obtain ⟨g, e, hi, p1, p2⟩ := inv_fromBlockCipher (α := α) aes hs hb hp hlt
  refine ⟨g, e, fun n => ?_⟩
  obtain ⟨g', hd, _⟩ := draw_spec (m := m) n hi (by
    rcases hovf with h | h
    · exact .inl h
    · right; omega)
  rw [p1, p2] at hd
  exact ⟨g', hd⟩

/-- C01 for the generator the library creates from a seed (no explicit range): it covers the whole
table but its first and last byte. -/
theorem C01_default_generator (aes : Cipher α) :
    ∃ g : Gen α, Gen.new none none = some g ∧
      ∀ n, ∃ g', g.draw .release aes n = some (expectedDraws aes 1 (2 ^ 132 - 1) n, g') := by
  obtain ⟨g, h1, h2⟩ := C01_generator_outputs_table_slice .release aes SECOND LAST SECOND_WF LAST_WF
    (by decide) (by rw [SECOND_pos, LAST_pos]; decide) (.inl rfl)
  rw [SECOND_pos, LAST_pos] at h2
  exact ⟨g, h1, h2⟩

/-- C01, rejected ranges: empty or reversed ranges and ranges starting at the first byte panic. -/
theorem C01_bad_range_panics (start bound : TableIndex) (hs : start.WF) (hb : bound.WF) :
    (fromBlockCipher start bound : Option (Gen α)) = none ↔
      (bound.pos ≤ start.pos ∨ start = FIRST) := by
  constructor
  · intro h
    by_cases hlt : start.pos < bound.pos
    · by_cases h0 : start = FIRST
      · exact .inr h0
      · obtain ⟨g, e, _⟩ := C01_generator_outputs_table_slice (α := α) .release
          (fun _ _ => default) start bound hs hb h0 hlt (.inl rfl)
        rw [e] at h; cases h
    · left; omega
  · intro h
    cases hg : (fromBlockCipher start bound : Option (Gen α)) with
    | none => rfl
    | some g =>
      obtain ⟨_, h1, h2, _⟩ := inv_of_fromBlockCipher (fun _ _ => default) hs hb hg
      rcases h with h | h
      · omega
      · rw [h, FIRST_pos] at h1; omega

/-- Non-vacuity of C01: a range crossing a 128-byte buffer boundary. -/
example : ∃ g : Gen (Nat × Nat), fromBlockCipher ⟨3, 5⟩ ⟨40, 2⟩ = some g ∧
    ∀ n, ∃ g', g.draw .debug Prod.mk n = some (expectedDraws Prod.mk 53 642 n, g') :=
  C01_generator_outputs_table_slice .debug Prod.mk ⟨3, 5⟩ ⟨40, 2⟩ (by decide) (by decide) (by decide)
    (by decide) (by decide)

/-- Finding: in a debug build a generator whose range reaches the last 7 blocks of the table panics
(`aes_ctr + 7` overflows) although bytes remain. -/
theorem C01_debug_panics_near_table_end :
    ∃ (start bound : TableIndex) (g : Gen (Nat × Nat)), start.WF ∧ bound.WF ∧ start ≠ FIRST ∧
      start.pos < bound.pos ∧ fromBlockCipher start bound = some g ∧
      g.remainingBytes = some 14 ∧ g.next .debug Prod.mk = none := by
  refine ⟨⟨2 ^ 128 - 1, 1⟩, LAST, ?_⟩
  refine ⟨_, by decide, by decide, by decide, by decide, rfl, by decide, by decide⟩

/-! ## C02 -/

/-- C02. After a successful fork of a reachable generator, compared with the list `os` of what the
parent would have returned on its next `n * b + r` calls (without forking): child `i` returns the
`i`-th block of `b` bytes of `os` and then `None`, and the parent returns what follows block `n`. -/
theorem C02_fork_splits_stream (m : Build) (aes : Cipher α) (g p : Gen α)
    (cs : List (Option (Gen α))) (n b : Nat)
    (hr : Reachable m aes g) (hf : g.tryFork m n b = .ok cs p)
    (hfit : n * b < 2 ^ 64) (hend : g.state.tableIndex.pos + n * b < TABLE)
    (hovf : m = .release ∨ g.getBound.pos + 127 ≤ TABLE) (r : Nat) :
    ∃ os g', g.draw m aes (n * b + r) = some (os, g') ∧
      (∀ o ∈ os.take (n * b), o.isSome = true) ∧
      cs.length = n ∧
      (∀ i, i < n → ∃ c c', cs[i]? = some (some c) ∧
        c.draw m aes b = some ((os.drop (i * b)).take b, c') ∧
        c'.next m aes = some (none, c')) ∧
      ∃ p', p.draw m aes r = some (os.drop (n * b), p') := by
  have hi := hr.inv
  have hT := hi.bound
  have hbd : g.getBound.pos = g.last.pos + 1 := incremented_pos hT
  have hno : NoOvf m g := by
    rcases hovf with h | h
    · exact .inl h
    · right; omega
  rcases tryFork_cases (m := m) hi (n := n) (b := b) (.inr hfit) (fun _ => hend) with
    ⟨e, he⟩ | he | ⟨hn, hb, hlt, hle'⟩
  · rw [he] at hf; cases hf
  · rw [he] at hf; cases hf
  obtain ⟨cs', p', he, hlen, hcs, hip, hpl, hpp⟩ := tryFork_ok (m := m) hi hn hb hlt hle'
  rw [he] at hf
  cases hf
  obtain ⟨g', hd, _⟩ := draw_spec (m := m) (n * b + r) hi hno
  refine ⟨_, g', hd, ?_, by simp [hlen], ?_, ?_⟩
  · intro o ho
    simp only [expectedDraws, ← List.map_take, List.mem_map] at ho
    obtain ⟨i, hi', rfl⟩ := ho
    rw [List.take_range] at hi'
    simp only [List.mem_range] at hi'
    rw [if_pos (by omega)]
    rfl
  · intro i hin
    obtain ⟨c, hc⟩ : ∃ c, cs'[i]? = some c := ⟨_, List.getElem?_eq_getElem (by omega)⟩
    obtain ⟨hic, h1, h2⟩ := hcs i c hc
    have e1 : (i + 1) * b ≤ n * b := Nat.mul_le_mul_right b hin
    have e2 : (i + 1) * b = i * b + b := by rw [Nat.add_mul, Nat.one_mul]
    have hnoc : NoOvf m c := by
      rcases hno with h | h
      · exact .inl h
      · right; omega
    obtain ⟨c', hdc, hic', hlc', hpc'⟩ := draw_spec (m := m) b hic hnoc
    refine ⟨c, c', by simp [hc], ?_, ?_⟩
    · rw [hdc]
      simp only [Option.some.injEq, Prod.mk.injEq, and_true]
      apply List.ext_getElem?
      intro j
      simp only [expectedDraws, List.getElem?_map, List.getElem?_take, List.getElem?_drop]
      by_cases hj : j < b
      · rw [if_pos hj, List.getElem?_range hj, List.getElem?_range (by omega)]
        simp only [Option.map_some, Option.some.injEq]
        rw [if_pos (by omega), if_pos (by omega)]
        congr 2
        omega
      · rw [if_neg hj, List.getElem?_eq_none (by simpa using hj)]
        rfl
    · apply next_end hic'
      rw [hlc', hpc']
      omega
  · obtain ⟨p'', hdp, _⟩ := draw_spec (m := m) r hip (by simpa [NoOvf, hpl] using hno)
    refine ⟨p'', ?_⟩
    rw [hdp]
    simp only [Option.some.injEq, Prod.mk.injEq, and_true]
    apply List.ext_getElem?
    intro j
    simp only [expectedDraws, List.getElem?_map, List.getElem?_drop, hpp, hpl]
    by_cases hj : j < r
    · rw [List.getElem?_range hj, List.getElem?_range (by omega)]
      simp only [Option.map_some, Option.some.injEq]
      have : g.state.tableIndex.pos + n * b + 1 + j = g.state.tableIndex.pos + 1 + (n * b + j) := by
        omega
      rw [this]
    · rw [List.getElem?_eq_none (by simpa using hj), List.getElem?_eq_none (by simp; omega)]
      rfl

/-! ## C03 -/

/-- C03. Start with one generator on `[start, bound)` and let a client apply any history of `next` and
`try_fork` calls to it and to all its descendants. The returned bytes are, in order, the table bytes at
positions `ps`, where no position occurs twice and all lie in `[start, bound)`; moreover the positions
not returned yet are exactly those the live generators can still return.

Conditions: either a debug build (overflowing forks panic) or forks whose byte count fits `usize`; and
the end of the table is out of reach: the bound is `2^64` bytes before it, or the history requests few
enough bytes (this is the case for a default generator, see `C03_default_generator`). -/
theorem C03_no_byte_output_twice (m : Build) (aes : Cipher α) (start bound : TableIndex)
    (hs : start.WF) (hb : bound.WF) (g : Gen α) (hg : fromBlockCipher start bound = some g)
    (ops : List Op) (gs' : List (Gen α)) (out : List α)
    (hfit : m = .debug ∨ forksFit ops)
    (hend : bound.pos + 2 ^ 64 ≤ TABLE ∨ start.pos + requested ops + 2 ^ 64 ≤ TABLE)
    (hovf : m = .release ∨ bound.pos + 127 ≤ TABLE)
    (hrun : runOps m aes ops [g] = some (gs', out)) :
    ∃ ps : List Nat, out = ps.map (tableByte aes) ∧ ps.Nodup ∧
      (∀ q ∈ ps, start.pos ≤ q ∧ q < bound.pos) ∧
      (ps ++ gs'.flatMap future).Perm (List.range' start.pos (bound.pos - start.pos)) := by
  obtain ⟨hi, h0, hlt, p1, p2⟩ := inv_of_fromBlockCipher aes hs hb hg
  obtain ⟨ps, h1, hperm⟩ := runOps_spec ops (gs := [g]) (m := m) (aes := aes)
    (by simpa using hi)
    (by
      intro x hx
      simp only [List.mem_singleton] at hx
      subst hx
      rcases hend with h | h
      · left; omega
      · right; omega)
    (by
      intro x hx
      simp only [List.mem_singleton] at hx
      subst hx
      rcases hovf with h | h
      · exact .inl h
      · right; omega)
    hfit hrun
  have hfut : [g].flatMap future = List.range' start.pos (bound.pos - start.pos) := by
    simp only [List.flatMap_cons, List.flatMap_nil, List.append_nil, future, p1]
    congr 1
    omega
  rw [hfut] at hperm
  refine ⟨ps, h1, ?_, ?_, hperm.symm⟩
  · have := (List.nodup_range' (s := start.pos) (n := bound.pos - start.pos)).perm hperm
    exact (List.nodup_append.1 this).1
  · intro q hq
    have : q ∈ List.range' start.pos (bound.pos - start.pos) :=
      hperm.mem_iff.2 (List.mem_append_left _ hq)
    rw [List.mem_range'_1] at this
    omega

end

/-- C03 for the generator created by the library from a seed, with symbolic bytes (`Prod.mk`: each
byte is named by its position): the outputs of any history requesting at most `2^131` bytes are
pairwise different. -/
theorem C03_default_generator (g : Gen (Nat × Nat)) (hg : Gen.new none none = some g)
    (ops : List Op) (gs' : List (Gen (Nat × Nat))) (out : List (Nat × Nat))
    (hfit : forksFit ops) (hreq : requested ops ≤ 2 ^ 131)
    (hrun : runOps .release Prod.mk ops [g] = some (gs', out)) : out.Nodup := by
  obtain ⟨ps, rfl, hnd, _⟩ := C03_no_byte_output_twice .release Prod.mk SECOND LAST SECOND_WF LAST_WF
    g hg ops gs' out (.inr hfit)
    (by right; rw [SECOND_pos]; simp only [TABLE]; omega) (.inl rfl) hrun
  refine List.Pairwise.map _ ?_ hnd
  intro a b hne heq
  simp only [tableByte, Prod.mk.injEq] at heq
  omega

/-- A small concrete history. -/
def demoOps : List Op := [.next 0, .fork 0 3 2, .next 2, .next 0, .fork 0 1 1, .next 4, .next 1]

/-- Non-vacuity of C03: the history runs, outputs five bytes and satisfies the conditions. -/
example : ∃ g gs' out, (Gen.new none none : Option (Gen (Nat × Nat))) = some g ∧
    runOps .release Prod.mk demoOps [g] = some (gs', out) ∧ out.length = 5 ∧
    forksFit demoOps ∧ requested demoOps ≤ 2 ^ 131 := by
  refine ⟨_, _, _, rfl, rfl, rfl, ?_, by decide⟩
  intro i n b h
  simp only [demoOps, List.mem_cons, List.not_mem_nil, Op.fork.injEq, or_false, false_or,
    reduceCtorEq] at h
  rcases h with ⟨_, rfl, rfl⟩ | ⟨_, rfl, rfl⟩ <;> decide

/-- Finding (release build): a fork whose byte count overflows `usize` is accepted, the parent does not
move, and the parent and its first child return the same table byte. -/
theorem C03_violated_by_overflowing_fork :
    ∃ (g : Gen (Nat × Nat)) (g2 p c : Gen (Nat × Nat)) (cs : List (Option (Gen (Nat × Nat)))),
      Gen.new none none = some g ∧ g.tryFork .release (2 ^ 32) (2 ^ 32) = .ok cs p ∧
      forkChild .release g.state.tableIndex.incremented (2 ^ 32) 0 = some c ∧ cs[0]? = some (some c) ∧
      c.next .release Prod.mk = some (some (0, 1), g2) ∧
      ∃ p2, p.next .release Prod.mk = some (some (0, 1), p2) := by
  refine ⟨_, _, _, _, _, rfl, rfl, rfl, ?_, rfl, _, rfl⟩
  rw [List.getElem?_map, List.getElem?_range (by decide)]
  rfl

section
variable {α : Type} [Inhabited α]

/-! ## C04 -/

/-- C04. For a reachable generator there is a number `r` such that exactly the `r` next calls return a
byte (the `r+1`-st and later ones return `None`), and `remaining_bytes` returns `r` when
`r < 2^128 - 16`, and otherwise a value in `[2^128 - 16, 2^128 - 1]` (saturation). -/
theorem C04_remaining_bytes (m : Build) (aes : Cipher α) (g : Gen α) (hr : Reachable m aes g)
    (hovf : m = .release ∨ g.getBound.pos + 127 ≤ TABLE) :
    ∃ r d, g.remainingBytes = some d ∧
      (r < 2 ^ 128 - 16 → d = r) ∧ (2 ^ 128 - 16 ≤ r → 2 ^ 128 - 16 ≤ d ∧ d < 2 ^ 128) ∧
      ∀ n, ∃ os g', g.draw m aes n = some (os, g') ∧ os.length = n ∧
        ∀ i o, os[i]? = some o → (o.isSome = true ↔ i < r) := by
  have hi := hr.inv
  have hle := hi.le
  have hbd : g.getBound.pos = g.last.pos + 1 := incremented_pos hi.bound
  have hno : NoOvf m g := by
    rcases hovf with h | h
    · exact .inl h
    · right; omega
  have hdraw : ∀ n, ∃ os g', g.draw m aes n = some (os, g') ∧ os.length = n ∧
        ∀ i o, os[i]? = some o → (o.isSome = true ↔ i < g.last.pos - g.state.tableIndex.pos) := by
    intro n
    obtain ⟨g', hd, _⟩ := draw_spec (m := m) n hi hno
    refine ⟨_, g', hd, by simp [expectedDraws], ?_⟩
    intro i o h
    simp only [expectedDraws, List.getElem?_map] at h
    by_cases hin : i < n
    · rw [List.getElem?_range hin] at h
      simp only [Option.map_some, Option.some.injEq] at h
      subst h
      by_cases hc : g.state.tableIndex.pos + 1 + i < g.last.pos + 1
      · simp only [hc, if_true, Option.isSome_some, true_iff]; omega
      · simp only [hc, if_false, Option.isSome_none]
        constructor
        · intro h; cases h
        · intro h; omega
    · rw [List.getElem?_eq_none (by simpa using hin)] at h
      cases h
  by_cases hs : g.last.pos - g.state.tableIndex.pos < 2 ^ 128 - 16
  · exact ⟨_, _, distance_exact hi.wfLast hi.wfState hle hs, fun _ => rfl, fun h => by omega, hdraw⟩
  · obtain ⟨d, hd, h1, h2⟩ := distance_saturated hi.wfLast hi.wfState
      (show 2 ^ 128 - 16 ≤ g.last.pos - g.state.tableIndex.pos by omega)
    exact ⟨_, d, hd, fun h => by omega, fun _ => ⟨h1, h2⟩, hdraw⟩

/-- C04, second part: `is_bounded` tells whether the bound differs from the last table index. -/
theorem C04_is_bounded (start bound : TableIndex)
    (hs : start.WF) (hb : bound.WF) (g : Gen α) (h : fromBlockCipher start bound = some g) :
    g.getBound = bound ∧ (g.isBounded = true ↔ bound ≠ LAST) := by
  obtain ⟨hi, h0, hlt, p1, p2⟩ := inv_of_fromBlockCipher (fun _ _ => (default : α)) hs hb h
  have e : g.getBound = bound :=
    pos_inj (increase_WF _ _) hb (by rw [← p2]; exact incremented_pos hi.bound)
  refine ⟨e, ?_⟩
  simp only [Gen.isBounded, e, Bool.not_eq_true', Bool.eq_false_iff, ne_eq,
    beq_iff hb LAST_WF]

/-! ## C05 -/

/-- C05 (partial: requests whose byte count fits `usize` and that do not run over the end of the
table). The outcome of `try_fork` is decided by the counts and the number of bytes left; on error the
generator is returned unchanged. -/
theorem C05_fork_outcome_partial (m : Build) (aes : Cipher α) (g : Gen α) (n b : Nat)
    (hr : Reachable m aes g)
    (hfit : n * b < 2 ^ 64) (hend : g.state.tableIndex.pos + n * b < TABLE) :
    (n = 0 → g.tryFork m n b = .err .zeroChildrenCount g) ∧
    (n ≠ 0 → b = 0 → g.tryFork m n b = .err .zeroBytesPerChild g) ∧
    (n ≠ 0 → b ≠ 0 → g.last.pos - g.state.tableIndex.pos < n * b →
      g.tryFork m n b = .err .forkTooLarge g) ∧
    (n ≠ 0 → b ≠ 0 → n * b ≤ g.last.pos - g.state.tableIndex.pos →
      ∃ (cs : List (Gen α)) (p : Gen α), g.tryFork m n b = .ok (cs.map some) p) := by
  have hi := hr.inv
  have hle := hi.le
  refine ⟨fun h => by simp [Gen.tryFork, h], fun h h' => by simp [Gen.tryFork, h, h'], ?_, ?_⟩
  · intro hn hb hlt
    simp only [Gen.tryFork, hn, hb, if_false, isForkInBound_ok hi hfit hend]
    rw [decide_eq_false (by omega)]
  · intro hn hb h
    obtain ⟨cs, p, h, _⟩ := tryFork_ok (m := m) hi (n := n) (b := b) (by omega) (by omega) hfit
      (by omega)
    exact ⟨cs, p, h⟩

/-- The number of bytes left used in C05 is the one returned by `remaining_bytes`. -/
theorem C05_bytes_left (m : Build) (aes : Cipher α) (g : Gen α) (hr : Reachable m aes g)
    (h : g.last.pos - g.state.tableIndex.pos < 2 ^ 128 - 16) :
    g.remainingBytes = some (g.last.pos - g.state.tableIndex.pos) :=
  distance_exact hr.inv.wfLast hr.inv.wfState hr.inv.le h

end

/-- Finding: with an overflowing byte count (release build) a fork is granted although it asks for
`2^64` bytes while only 3 remain. -/
theorem C05_violated_by_overflow :
    ∃ g cs p, (fromBlockCipher ⟨0, 1⟩ ⟨0, 4⟩ : Option (Gen Nat)) = some g ∧
      g.remainingBytes = some 3 ∧ g.tryFork .release (2 ^ 32) (2 ^ 32) = .ok cs p :=
  ⟨_, _, _, rfl, by decide, rfl⟩

/-- Finding: near the end of the table a fork asking for more bytes than remain is granted (the index
wraps around) and moves the parent back to the beginning of the table; any build. -/
theorem C05_violated_by_table_wrap (m : Build) :
    ∃ g cs p, (fromBlockCipher ⟨2 ^ 128 - 1, 5⟩ LAST : Option (Gen Nat)) = some g ∧
      g.remainingBytes = some 10 ∧ g.tryFork m 1 100 = .ok cs p ∧
      p.state.tableIndex = ⟨5, 8⟩ := by
  cases m <;> exact ⟨_, _, _, rfl, by decide, rfl, by decide⟩

/-- Non-vacuity of C02 and C05: a reachable generator with a fork that is granted. -/
example : ∃ g cs p, Reachable .release (Prod.mk : Cipher (Nat × Nat)) g ∧
    g.tryFork .release 4 10 = .ok cs p ∧ g.state.tableIndex.pos + 4 * 10 < TABLE ∧
    g.last.pos - g.state.tableIndex.pos = 50 :=
  ⟨_, _, _, .create (start := ⟨0, 9⟩) (bound := ⟨3, 11⟩) (by decide) (by decide) rfl, rfl,
    by decide, by decide⟩

section
variable {α : Type} [Inhabited α]

/-! ## C06 -/

theorem foldl_set_getElem? {β : Type} (f : Nat → β) (sched : List Nat) (acc : List β) (i : Nat)
    (hi : i < acc.length) :
    (sched.foldl (fun acc i => acc.set i (f i)) acc)[i]? =
      if i ∈ sched then some (f i) else acc[i]? := by
  induction sched generalizing acc with
  | nil => simp
  | cons j sched ih =>
    rw [List.foldl_cons, ih _ (by simpa using hi)]
    by_cases h1 : i ∈ sched
    · simp [h1]
    · by_cases h2 : j = i
      · subst h2; simp [hi]
      · simp [h1, List.getElem?_set_ne h2, Ne.symm h2]

theorem foldl_set_length {β : Type} (f : Nat → β) (sched : List Nat) (acc : List β) :
    (sched.foldl (fun acc i => acc.set i (f i)) acc).length = acc.length := by
  induction sched generalizing acc with
  | nil => rfl
  | cons j sched ih => rw [List.foldl_cons, ih]; simp

/-- C06. Whatever the order in which the workers evaluate the children (any schedule visiting each
index at least once), the parallel fork gives the result of the sequential fork. -/
theorem C06_par_fork_eq_fork (m : Build) (g : Gen α) (n b : Nat) (sched : List Nat)
    (h : ∀ i, i < n → i ∈ sched) : g.parTryFork m n b sched = g.tryFork m n b := by
  have key : ∀ first, sched.foldl
      (fun (acc : List (Option (Gen α))) i => acc.set i (forkChild m first b i))
      (List.replicate n none) = (List.range n).map (forkChild m first b) := by
    intro first
    apply List.ext_getElem?
    intro i
    by_cases hi : i < n
    · rw [foldl_set_getElem? _ _ _ _ (by simpa using hi), if_pos (h i hi)]
      simp [hi]
    · rw [List.getElem?_eq_none (by rw [foldl_set_length]; simpa using hi),
        List.getElem?_eq_none (by simpa using hi)]
  simp only [Gen.parTryFork, Gen.tryFork, key]

example (g : Gen Nat) : g.parTryFork .release 3 5 [2, 0, 1] = g.tryFork .release 3 5 :=
  C06_par_fork_eq_fork .release g 3 5 [2, 0, 1] (by decide)

end

/-! ## C07 -/

/-- C07. Table index arithmetic is arithmetic of positions modulo `2^132`. -/
theorem C07_index_arithmetic (t u : TableIndex) (ht : t.WF) (hu : u.WF) (s s' : Nat)
    (hs : s < 2 ^ 64) :
    (t.increase s).WF ∧ (t.increase s).pos = (t.pos + s) % 2 ^ 132 ∧
    (t.decrease s).WF ∧ ((t.decrease s).pos : Int) = ((t.pos : Int) - s) % 2 ^ 132 ∧
    (t.increase s).decrease s = t ∧ (t.decrease s).increase s = t ∧
    (t.increase s).increase s' = t.increase (s + s') ∧
    (t.lt u = true ↔ t.pos < u.pos) ∧ (t.le u = true ↔ t.pos ≤ u.pos) ∧
    (t.beq u = true ↔ t = u) ∧ (t.pos = u.pos ↔ t = u) := by
  have hp := ht.pos_lt
  have h1 := increase_pos t s
  have h2 := decrease_pos ht s hs
  refine ⟨increase_WF t s, h1, decrease_WF ht s, ?_, ?_, ?_, ?_, lt_iff ht hu, le_iff ht hu,
    beq_iff ht hu, ⟨pos_inj ht hu, fun h => by rw [h]⟩⟩
  · rw [h2]; simp only [TABLE] at *; omega
  · apply pos_inj (decrease_WF (increase_WF t s) s) ht
    rw [decrease_pos (increase_WF t s) s hs, h1]
    simp only [TABLE] at *
    omega
  · apply pos_inj (increase_WF _ s) ht
    rw [increase_pos, h2]
    simp only [TABLE] at *
    omega
  · apply pos_inj (increase_WF _ _) (increase_WF _ _)
    rw [increase_pos, increase_pos, increase_pos]
    simp only [TABLE] at *
    omega

/-- C07, distance: `None` when the first index is smaller, otherwise the difference of positions (as
long as it is below `2^128 - 16`). -/
theorem C07_distance (t u : TableIndex) (ht : t.WF) (hu : u.WF) :
    (t.pos < u.pos → distance t u = none) ∧
    (u.pos ≤ t.pos → t.pos - u.pos < 2 ^ 128 - 16 → distance t u = some (t.pos - u.pos)) ∧
    (2 ^ 128 - 16 ≤ t.pos - u.pos → ∃ d, distance t u = some d ∧ 2 ^ 128 - 16 ≤ d ∧ d < 2 ^ 128) :=
  ⟨distance_lt ht hu, distance_exact ht hu, distance_saturated ht hu⟩

example : (⟨2 ^ 128 - 1, 9⟩ : TableIndex).WF ∧ (⟨3, 15⟩ : TableIndex).WF ∧ (1000 : Nat) < 2 ^ 64 := by
  decide

end Verif.Csprng
