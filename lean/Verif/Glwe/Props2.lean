import Verif.Glwe.Ggsw2
import Mathlib.Tactic.Choose
/-
Properties of GGSW ciphertexts and bootstrap keys: what they encrypt (C26), seeded forms (C17), parallel
generation (C18), mask budgets (C19).

`Complete N sched` schedules run every job once, in any order.
-/
set_option linter.unusedSectionVars false
namespace Verif.Glwe
open Verif.Random Verif.Poly

variable {w : Nat}

/-! ### Sequential generation is parallel generation with the identity schedule -/

theorem encryptGgsw_eq_par (f : GaussianFn w) (key : List (BitVec w)) (N k b level : Nat) (hN : 0 < N)
    (out : List (BitVec w)) (msg : BitVec w) (g : EncGen)
    (ho : out.length = level * ((k + 1) * ((k + 1) * N))) :
    encryptGgsw f key N k b out msg g =
      parEncryptGgsw f key N k b (List.range level) (fun _ => List.range (k + 1)) out msg g := by
  rw [encryptGgsw, ho, Nat.mul_div_cancel _ (Nat.mul_pos (by omega) (Nat.mul_pos (by omega) hN))]
  rfl

theorem encryptSeededGgsw_eq_par (f : GaussianFn w) (key : List (BitVec w)) (N k b level : Nat) (hN : 0 < N)
    (out : List (BitVec w)) (msg : BitVec w) (g : EncGen) (ho : out.length = level * ((k + 1) * N)) :
    encryptSeededGgsw f key N k b out msg g =
      parEncryptSeededGgsw f key N k b (List.range level) (fun _ => List.range (k + 1)) out msg g := by
  rw [encryptSeededGgsw, ho, Nat.mul_div_cancel _ (Nat.mul_pos (by omega) hN)]
  rfl

/-! ### C26 -/

/-- The decryption of a ciphertext whose phase is known. -/
theorem decrypt_of_phase {R : Type} [CommRing R] (N k : Nat) (hN : 0 < N) (key ct buf p : List R)
    (hk : KeyFits N k key) (hc : CtFits N k ct) (hb : buf.length = N) (hp : p.length = N)
    (h : glwePhase N k key ct = toRq N p) : decryptGlwe N key buf ct = p := by
  obtain ⟨d1, d2⟩ := decryptGlwe_spec N k hN key buf ct hk hc hb
  exact toRq_inj N hN _ _ d1 hp (by rw [d2, h])

theorem rowPlaintext_getD (key : List (BitVec w)) (N k b lev : Nat) (hk : KeyFits N k key) (m : BitVec w)
    (r i : Nat) (hi : i < N) :
    (rowPlaintext key N k (-m * gadget w b lev) r).getD i 0 =
      if r < k then -(m * 2 ^ (w - b * lev) * key.getD (r * N + i) 0)
      else if i = 0 then m * 2 ^ (w - b * lev) else 0 := by
  unfold rowPlaintext
  by_cases hr : r < k
  · have hl := block_len N k r key hk hr
    rw [if_pos hr, if_pos hr, ← block_getD N key r i 0 hi]
    simp only [List.getD_eq_getElem?_getD, List.getElem?_map,
      List.getElem?_eq_getElem (show i < (block N key r).length by omega), Option.map_some, Option.getD_some]
    rw [gadget_eq]; ring
  · rw [if_neg hr, if_neg hr]
    have := getD_modify (List.replicate N (0 : BitVec w)) 0 (fun x => x + -(-m * gadget w b lev)) i
      (by simp; omega)
    have e : (List.replicate N (0 : BitVec w)).getD i 0 = 0 := by
      simp [List.getD_eq_getElem?_getD, hi]
    rw [e] at this
    refine Eq.trans this ?_
    rw [gadget_eq]
    split <;> ring

/-- C26: whatever the schedule, row `r` of level `j + 1` of a GGSW encryption of `m` decrypts to
`-m·2^(w-b(j+1))·s_r` (mask rows) or the constant `m·2^(w-b(j+1))` (body row), plus a noise polynomial
drawn from the slice of the noise stream reserved for that row. -/
theorem C26_par_encrypt (f : GaussianFn w) (N k b level : Nat) (hN : 0 < N) (key out ct : List (BitVec w))
    (msg : BitVec w) (g g' : EncGen) (sched : List Nat) (rowSched : Nat → List Nat)
    (hk : KeyFits N k key) (ho : out.length = level * ((k + 1) * ((k + 1) * N)))
    (hp : sched.Perm (List.range level)) (hs : ∀ j, j < level → (rowSched j).Perm (List.range (k + 1)))
    (h : parEncryptGgsw f key N k b sched rowSched out msg g = some (ct, g')) :
    ∃ e : Nat → Nat → List (BitVec w),
      (∀ j r, j < level → r ≤ k → (e j r).length = N ∧ ∃ gn,
        randomNoiseTensor f N { g.noise with pos := g.noise.pos + (j * (k + 1) + r) * (N * 256), bound := g.noise.pos + (j * (k + 1) + r + 1) * (N * 256) } = some (e j r, gn)) ∧
      GgswEnc N k b level key ct (AdjoinRoot.of _ msg) (fun j r => toRq N (e j r)) ∧
      ∀ j r, j < level → r ≤ k → ∀ buf, buf.length = N → ∀ i, i < N →
        (decryptGlwe N key buf (ggswRow N k ct j r)).getD i 0 =
          (if r < k then -(msg * 2 ^ (w - b * (j + 1)) * key.getD (r * N + i) 0)
            else if i = 0 then msg * 2 ^ (w - b * (j + 1)) else 0) + (e j r).getD i 0 := by
  have hkN : 0 < (k + 1) * N := Nat.mul_pos (by omega) hN
  obtain ⟨_, _, hl, hrow⟩ := (ggswFill_iff (rowEnc f key N) _ hkN key N k b level hN
    (keeps_rowEnc f key N k hN hk) msg g g' sched rowSched hp hs out ct ho).1 h
  have hlt : ∀ j r, j < level → r < k + 1 → j * (k + 1) + r < level * (k + 1) := by
    intro j r hj hr
    calc j * (k + 1) + r < j * (k + 1) + (k + 1) := by omega
      _ = (j + 1) * (k + 1) := by rw [Nat.add_mul j, Nat.one_mul]
      _ ≤ level * (k + 1) := Nat.mul_le_mul_right _ hj
  have main : ∀ j r, ∃ e : List (BitVec w), j < level → r ≤ k → (e.length = N ∧ ∃ gn,
        randomNoiseTensor f N (g.slice (mB w k N) (nB N) (j * (k + 1) + r)).noise = some (e, gn)) ∧
        CtFits N k (ggswRow N k ct j r) ∧
        glwePhase N k key (ggswRow N k ct j r) =
          toRq N (rowPlaintext key N k (-msg * gadget w b (j + 1)) r) + toRq N e := by
    intro j r
    by_cases hc : j < level ∧ r ≤ k
    · obtain ⟨hj, hr⟩ := hc
      have hb := hrow j hj r (by omega)
      obtain ⟨⟨c, gi⟩, hx, e1⟩ := Option.map_eq_some_iff.1 hb
      simp only at e1
      subst e1
      obtain ⟨e, h1, h2, h3, h4⟩ := encryptGlwe_phase hN hk
        (block_len ((k + 1) * N) (level * (k + 1)) _ out (by rw [ho, Nat.mul_assoc])
          (hlt j r hj (by omega)))
        (rowPlaintext_length key N k hk _ r) hx
      refine ⟨e, fun _ _ => ?_⟩
      rw [ggswRow, block_block _ _ _ _ _ (by omega)]
      exact ⟨⟨h2, _, h1⟩, h3, h4⟩
    · exact ⟨[], fun h1 h2 => absurd ⟨h1, h2⟩ hc⟩
  choose e he using main
  refine ⟨e, fun j r hj hr => (he j r hj hr).1, ⟨hl, ?_⟩, ?_⟩
  · intro j hj r hr
    rw [(he j r hj hr).2.2, rowPlaintext_toRq key N k b (j + 1) hN msg r]
  · intro j r hj hr buf hb i hi
    obtain ⟨⟨e1, _⟩, e3, e4⟩ := he j r hj hr
    have hpl := rowPlaintext_length key N k hk (-msg * gadget w b (j + 1)) r
    have hadd : (Poly.add (rowPlaintext key N k (-msg * gadget w b (j + 1)) r) (e j r)).length = N := by
      rw [Poly.add, zipUpdate_length, hpl]
    rw [decrypt_of_phase N k hN key _ buf _ hk e3 hb hadd
      (by rw [e4, toRq_add N _ _ (by rw [hpl, e1])]), Poly.add,
      zipUpdate_getD _ _ _ _ 0 0 (by rw [hpl]; exact hi) (by rw [e1]; exact hi),
      rowPlaintext_getD key N k b (j + 1) hk msg r i hi]

/-- C26 for sequential encryption. -/
theorem C26_encrypt (f : GaussianFn w) (N k b level : Nat) (hN : 0 < N) (key out ct : List (BitVec w))
    (msg : BitVec w) (g g' : EncGen)
    (hk : KeyFits N k key) (ho : out.length = level * ((k + 1) * ((k + 1) * N)))
    (h : encryptGgsw f key N k b out msg g = some (ct, g')) :
    ∃ e : Nat → Nat → List (BitVec w),
      (∀ j r, j < level → r ≤ k → (e j r).length = N ∧ ∃ gn,
        randomNoiseTensor f N { g.noise with pos := g.noise.pos + (j * (k + 1) + r) * (N * 256), bound := g.noise.pos + (j * (k + 1) + r + 1) * (N * 256) } = some (e j r, gn)) ∧
      GgswEnc N k b level key ct (AdjoinRoot.of _ msg) (fun j r => toRq N (e j r)) ∧
      ∀ j r, j < level → r ≤ k → ∀ buf, buf.length = N → ∀ i, i < N →
        (decryptGlwe N key buf (ggswRow N k ct j r)).getD i 0 =
          (if r < k then -(msg * 2 ^ (w - b * (j + 1)) * key.getD (r * N + i) 0)
            else if i = 0 then msg * 2 ^ (w - b * (j + 1)) else 0) + (e j r).getD i 0 := by
  rw [encryptGgsw_eq_par f key N k b level hN out msg g ho] at h
  exact C26_par_encrypt f N k b level hN key out ct msg g g' _ _ hk ho (List.Perm.refl _)
    (fun _ _ => List.Perm.refl _) h

theorem fill_size (f : GaussianFn w) (N k b level : Nat) (hN : 0 < N) (key : List (BitVec w))
    (hk : KeyFits N k key) (c : List (BitVec w)) (s : BitVec w) (g1 : EncGen) (c' : List (BitVec w))
    (g2 : EncGen) (sched : List Nat) (rowSched : Nat → List Nat) (hp : sched.Perm (List.range level))
    (hs : ∀ j, j < level → (rowSched j).Perm (List.range (k + 1)))
    (hc : c.length = level * ((k + 1) * ((k + 1) * N)))
    (h : parEncryptGgsw f key N k b sched rowSched c s g1 = some (c', g2)) :
    c'.length = level * ((k + 1) * ((k + 1) * N)) :=
  ((ggswFill_iff (rowEnc f key N) _ (Nat.mul_pos (by omega) hN) key N k b level hN
    (keeps_rowEnc f key N k hN hk) s g1 g2 sched rowSched hp hs c c' hc).1 h).2.2.1

theorem fillSeeded_size (f : GaussianFn w) (N k b level : Nat) (hN : 0 < N) (key : List (BitVec w))
    (hk : KeyFits N k key) (c : List (BitVec w)) (s : BitVec w) (g1 : EncGen) (c' : List (BitVec w))
    (g2 : EncGen) (sched : List Nat) (rowSched : Nat → List Nat) (hp : sched.Perm (List.range level))
    (hs : ∀ j, j < level → (rowSched j).Perm (List.range (k + 1)))
    (hc : c.length = level * ((k + 1) * N))
    (h : parEncryptSeededGgsw f key N k b sched rowSched c s g1 = some (c', g2)) :
    c'.length = level * ((k + 1) * N) :=
  ((ggswFill_iff (rowEncSeeded f key N) _ hN key N k b level hN
    (keeps_rowEncSeeded f key N k hN hk) s g1 g2 sched rowSched hp hs c c' hc).1 h).2.2.1

/-- Schedules of the whole bootstrap key generation in which every job runs once, in any order. -/
def BskSchedules (n level k : Nat) (sched : List Nat) (levelSched : Nat → List Nat)
    (rowSched : Nat → Nat → List Nat) : Prop :=
  sched.Perm (List.range n) ∧ (∀ i, (levelSched i).Perm (List.range level)) ∧
  ∀ i j, (rowSched i j).Perm (List.range (k + 1))

/-- C26 (bootstrap keys): GGSW number `i` of a bootstrap key is a GGSW encryption of the `i`-th
coefficient of the LWE key, with a noise polynomial of the noise stream in each row. -/
theorem C26_bootstrap_key (f : GaussianFn w) (N k b level : Nat) (hN : 0 < N) (hL : 0 < level)
    (lweKey key out bsk : List (BitVec w)) (g g' : EncGen) (sched : List Nat)
    (levelSched : Nat → List Nat) (rowSched : Nat → Nat → List Nat) (hk : KeyFits N k key)
    (ho : out.length = lweKey.length * (level * ((k + 1) * ((k + 1) * N))))
    (hs : BskSchedules lweKey.length level k sched levelSched rowSched)
    (h : parFillBsk f lweKey key N k b level sched levelSched rowSched out g = some (bsk, g')) :
    bsk.length = lweKey.length * (level * ((k + 1) * ((k + 1) * N))) ∧
    ∀ i, i < lweKey.length → ∃ e : Nat → Nat → List (BitVec w),
      (∀ j r, j < level → r ≤ k → (e j r).length = N ∧ ∃ gi gn,
        gi.table = g.noise.table ∧ gi.pos = g.noise.pos + (i * (level * (k + 1)) + (j * (k + 1) + r)) * (N * 256) ∧
        randomNoiseTensor f N gi = some (e j r, gn)) ∧
      GgswEnc N k b level key (block (level * ((k + 1) * ((k + 1) * N))) bsk i)
        (AdjoinRoot.of _ (lweKey.getD i 0)) (fun j r => toRq N (e j r)) := by
  have hkN : 0 < (k + 1) * N := Nat.mul_pos (by omega) hN
  obtain ⟨s1, s2, s3⟩ := hs
  obtain ⟨_, _, h3, h4⟩ := (bskFill_iff _ _ (Nat.mul_pos hL (Nat.mul_pos (by omega) hkN)) lweKey N k level
    sched s1 out ho g g' bsk (fun i c s g1 c' g2 hc hf => fill_size f N k b level hN key hk c s g1 c' g2 _ _ (s2 i)
      (fun j _ => s3 i j) hc hf)).1 h
  refine ⟨h3, fun i hi => ?_⟩
  obtain ⟨gi, e⟩ := h4 i hi
  obtain ⟨e', e1, e2, _⟩ := C26_par_encrypt f N k b level hN key _ _ _ _ _ _ _ hk (by simp) (s2 i)
    (fun j _ => s3 i j) e
  refine ⟨e', fun j r hj hr => ?_, e2⟩
  obtain ⟨a1, gn, a2⟩ := e1 j r hj hr
  refine ⟨a1, (((g.slice (level * ((k + 1) * mB w k N)) (level * ((k + 1) * nB N)) i).slice (mB w k N) (nB N)
    (j * (k + 1) + r)).noise), gn, rfl, ?_, a2⟩
  simp only [EncGen.slice]
  rw [Nat.add_assoc, ← Nat.mul_assoc level, ← Nat.mul_assoc i, ← Nat.add_mul]

/-! ### C26, trivial GGSW -/

theorem block_modify_self {R : Type} [CommRing R] (N r : Nat) (hN : 0 < N) (row : List R) (d : R) (i : Nat) :
    block N (row.modify (r * N) (fun x => x + d)) i =
      if i = r then (block N row i).modify 0 (fun x => x + d) else block N row i := by
  apply List.ext_getElem?
  intro j
  by_cases hj : j < N
  · have hne : ∀ a b : Nat, a < N → a * 0 = 0 → (i * N + j = r * N ↔ i = r ∧ j = 0) := by
      intro _ _ _ _
      constructor
      · intro h
        have h1 : (i * N + j) / N = i := by
          rw [Nat.mul_comm, Nat.mul_add_div hN, Nat.div_eq_of_lt hj, Nat.add_zero]
        have h2 : (r * N) / N = r := Nat.mul_div_cancel _ hN
        have : i = r := by rw [← h1, h, h2]
        subst this
        exact ⟨rfl, by omega⟩
      · rintro ⟨rfl, rfl⟩; rfl
    have hne := hne 0 0 hN rfl
    rw [block_getElem? N _ i j hj, List.getElem?_modify]
    by_cases hi : i = r
    · rw [if_pos hi, List.getElem?_modify, block_getElem? N _ i j hj]
      by_cases hj0 : j = 0
      · have e : r * N = i * N + j := by rw [eq_comm, hne]; exact ⟨hi, hj0⟩
        simp only [if_pos e, if_pos hj0.symm]
      · have e : ¬ r * N = i * N + j := by rw [eq_comm, hne]; exact fun h => hj0 h.2
        simp only [if_neg e, if_neg (show ¬ 0 = j from fun h => hj0 h.symm)]
    · have e : ¬ r * N = i * N + j := by rw [eq_comm, hne]; exact fun h => hi h.1
      rw [if_neg hi, block_getElem? N _ i j hj]
      simp [e]
  · rw [List.getElem?_eq_none, List.getElem?_eq_none]
    · split
      · rw [List.length_modify]; simp only [block, List.length_take]; omega
      · simp only [block, List.length_take]; omega
    · simp only [block, List.length_take]; omega

/-- The rows after the in-place trivial encryption. -/
theorem trivial_row (N k b level : Nat) (hN : 0 < N) (out : List (BitVec w)) (msg : BitVec w)
    (ho : out.length = level * ((k + 1) * ((k + 1) * N))) :
    (fillTrivialGgsw N k b out msg).length = level * ((k + 1) * ((k + 1) * N)) ∧
    ∀ j, j < level → ∀ r, r < k + 1 → ggswRow N k (fillTrivialGgsw N k b out msg) j r =
      (List.replicate (k * N) 0#w ++ bodyOf N (ggswRow N k out j r)).modify (r * N)
        (fun x => x + msg * gadget w b (j + 1)) := by
  have hkN : 0 < (k + 1) * N := Nat.mul_pos (by omega) hN
  have hkN2 : 0 < (k + 1) * ((k + 1) * N) := Nat.mul_pos (by omega) hkN
  have hclear : ∀ row : List (BitVec w), row.length = (k + 1) * N →
      ((maskOf N row).map (fun _ => 0#w) ++ bodyOf N row).length = (k + 1) * N := by
    intro row hl
    rw [List.length_append, List.length_map, mask_length N k row hl, body_length N k row hl, Nat.add_mul,
      Nat.one_mul]
  obtain ⟨c1, c2⟩ := map_chunks_block (fun row => (maskOf N row).map (fun _ => 0#w) ++ bodyOf N row)
    (level * (k + 1)) ((k + 1) * N) hkN out (by rw [ho, Nat.mul_assoc]) hclear
  have hrows : ∀ d (c : List (BitVec w)), c.length = (k + 1) * ((k + 1) * N) →
      ((addDiagonal N d (chunks ((k + 1) * N) c)).flatten.length = (k + 1) * ((k + 1) * N)) ∧
      ∀ r, r < k + 1 → block ((k + 1) * N) (addDiagonal N d (chunks ((k + 1) * N) c)).flatten r =
        (block ((k + 1) * N) c r).modify (r * N) (fun x => x + d) := by
    intro d c hc
    exact mapIdx_chunks_block (fun r row => row.modify (r * N) (fun x => x + d)) (k + 1) ((k + 1) * N) hkN c
      hc (fun i c' _ hl => by rw [List.length_modify, hl])
  obtain ⟨m1, m2⟩ := mapIdx_chunks_block (fun j matrix =>
    (addDiagonal N (msg * gadget w b (j + 1)) (chunks ((k + 1) * N) matrix)).flatten) level
    ((k + 1) * ((k + 1) * N)) hkN2 _ (by rw [c1, Nat.mul_assoc]) (fun j c _ hc => (hrows _ c hc).1)
  refine ⟨m1, fun j hj r hr => ?_⟩
  have hlt : j * (k + 1) + r < level * (k + 1) :=
    calc j * (k + 1) + r < j * (k + 1) + (k + 1) := by omega
      _ = (j + 1) * (k + 1) := by rw [Nat.add_mul j, Nat.one_mul]
      _ ≤ level * (k + 1) := Nat.mul_le_mul_right _ hj
  rw [ggswRow, fillTrivialGgsw]
  rw [m2 j hj, (hrows _ _ (block_length _ _ _ (by
      rw [c1, Nat.mul_assoc]; exact Nat.mul_le_mul_right _ hj))).2 r hr,
    block_block _ _ _ _ _ hr, c2 _ hlt, ggswRow, block_block _ _ _ _ _ hr, List.map_const',
    mask_length N k _ (block_len _ _ _ out (by rw [ho, Nat.mul_assoc]) hlt)]

/-- C26 (in-place trivial encryption), the part that holds: the result is a GGSW encryption of the
message under every key, with, in each row, the previous content of the body as error. In particular it
is exact when the bodies were zero.
Missing: the bodies are not cleared (`C26_trivial_violated`). -/
theorem C26_trivial_in_place_partial (N k b level : Nat) (hN : 0 < N) (key out : List (BitVec w))
    (msg : BitVec w) (ho : out.length = level * ((k + 1) * ((k + 1) * N))) :
    GgswEnc N k b level key (fillTrivialGgsw N k b out msg) (AdjoinRoot.of _ msg)
      (fun j r => toRq N (block N (ggswRow N k out j r) k)) := by
  obtain ⟨h1, h2⟩ := trivial_row N k b level hN out msg ho
  refine ⟨h1, fun j hj r hr => ?_⟩
  have hkN : 0 < (k + 1) * N := Nat.mul_pos (by omega) hN
  have hlt : j * (k + 1) + r < level * (k + 1) :=
    calc j * (k + 1) + r < j * (k + 1) + (k + 1) := by omega
      _ = (j + 1) * (k + 1) := by rw [Nat.add_mul j, Nat.one_mul]
      _ ≤ level * (k + 1) := Nat.mul_le_mul_right _ hj
  have hrl : CtFits N k (ggswRow N k out j r) := by
    rw [ggswRow, block_block _ _ _ _ _ (by omega)]
    exact block_len _ _ _ out (by rw [ho, Nat.mul_assoc]) hlt
  have hbl := body_length N k _ hrl
  rw [h2 j hj r (by omega)]
  simp only
  rw [← body_eq N k _ hrl]
  generalize bodyOf N (ggswRow N k out j r) = body at hbl
  set d := msg * gadget w b (j + 1) with hd
  have hl : (List.replicate (k * N) 0#w ++ body).length = (k + 1) * N := by
    rw [List.length_append, List.length_replicate, hbl, Nat.add_mul, Nat.one_mul]
  have hb0 : ∀ i, i < k → toRq N (block N (List.replicate (k * N) 0#w ++ body) i) = 0 := by
    intro i hi
    have : block N (List.replicate (k * N) 0#w ++ body) i = block N (List.replicate (k * N) 0#w) i := by
      rw [← block_take N k i (List.replicate (k * N) 0#w ++ body) hi, List.take_left' (by simp)]
    rw [this, block, List.drop_replicate, List.take_replicate]
    exact toRq_zero N _
  have hbk : block N (List.replicate (k * N) 0#w ++ body) k = body := by
    rw [block, List.drop_left' (by simp), List.take_of_length_le (by omega)]
  have hof : AdjoinRoot.of (Polynomial.X ^ N + 1) d = AdjoinRoot.of _ msg * 2 ^ (w - b * (j + 1)) := by
    rw [hd, map_mul, of_gadget]
  have hblk : ∀ i, i < k + 1 →
      toRq N (block N ((List.replicate (k * N) 0#w ++ body).modify (r * N) (fun x => x + d)) i) =
      toRq N (block N (List.replicate (k * N) 0#w ++ body) i) +
        if i = r then AdjoinRoot.of _ msg * 2 ^ (w - b * (j + 1)) else 0 := by
    intro i hi
    rw [block_modify_self N r hN _ d i]
    by_cases hir : i = r
    · rw [if_pos hir, if_pos hir, toRq_modify N _ 0 _ (by rw [block_len N (k + 1) i _ hl hi]; exact hN),
        pow_zero, mul_one, hof]
    · rw [if_neg hir, if_neg hir, add_zero]
  rw [glwePhase, hblk k (by omega), hbk]
  have hsum : ∑ i ∈ Finset.range k,
      toRq N (block N ((List.replicate (k * N) 0#w ++ body).modify (r * N) (fun x => x + d)) i) *
        toRq N (block N key i) =
      ∑ i ∈ Finset.range k, (if i = r then AdjoinRoot.of _ msg * 2 ^ (w - b * (j + 1)) * toRq N (block N key i) else 0) := by
    apply Finset.sum_congr rfl
    intro i hi
    have hi := Finset.mem_range.1 hi
    rw [hblk i (by omega), hb0 i hi, zero_add, ite_mul, zero_mul]
  rw [hsum, Finset.sum_ite_eq', rowFactor]
  by_cases hrk : r < k
  · rw [if_neg (by omega), if_pos (Finset.mem_range.2 hrk), if_pos hrk]; ring
  · rw [if_pos (by omega), if_neg (fun h => hrk (Finset.mem_range.1 h)), if_neg hrk]; ring

/-- C26 (new trivial encryption): exact, under every key. -/
theorem C26_trivial_new (N k b level : Nat) (hN : 0 < N) (key : List (BitVec w)) (msg : BitVec w) :
    GgswEnc N k b level key (newTrivialGgsw N k b level msg) (AdjoinRoot.of _ msg) (fun _ _ => 0) := by
  have h := C26_trivial_in_place_partial N k b level hN key
    (List.replicate (level * ((k + 1) * ((k + 1) * N))) 0#w) msg (by simp)
  have e : (fun j r => toRq N (block N (ggswRow N k
      (List.replicate (level * ((k + 1) * ((k + 1) * N))) 0#w) j r) k)) = fun _ _ => 0 := by
    funext j r
    simp only [ggswRow, block, List.drop_replicate, List.take_replicate]
    exact toRq_zero N _
  rw [e] at h
  exact h

/-- C26 fails for the in-place trivial encryption: after encrypting 1 trivially over a GGSW container
that held ones, the body row of level 1 decrypts to `2^28 + 1` and 1 (under the zero key) instead of
`2^28` and 0. -/
theorem C26_trivial_violated :
    decryptGlwe 2 [0#32, 0#32] [0#32, 0#32]
      (ggswRow 2 1 (fillTrivialGgsw 2 1 4 (List.replicate 8 1#32) 1#32) 0 1) =
      [BitVec.ofNat 32 (2 ^ 28 + 1), 1#32] ∧
    decryptGlwe 2 [0#32, 0#32] [0#32, 0#32] (ggswRow 2 1 (newTrivialGgsw 2 1 4 1 1#32) 0 1) =
      [BitVec.ofNat 32 (2 ^ 28), 0#32] := by
  decide

/-- A generator with which GGSW encryption succeeds. -/
example :
    let f : GaussianFn 8 := { accept := fun _ _ => true, value := fun _ _ => (1#8, 2#8) }
    let g : EncGen := { mask := ⟨fun p => BitVec.ofNat 8 (p * p), 1, 1000⟩, noise := ⟨fun p => BitVec.ofNat 8 p, 1, 5000⟩ }
    ∃ ct g', encryptGgsw f [1#8, 0#8] 2 1 3 (List.replicate 16 0#8) 1#8 g = some (ct, g') ∧
      ((ct.take 4 = [1#8, 4#8, 226#8, 6#8]) ∧
        decryptGlwe 2 [1#8, 0#8] [0#8, 0#8] (ggswRow 2 1 ct 0 0) = [-32#8 + 1#8, 2#8]) := by
  refine ⟨_, _, rfl, ?_⟩
  decide

/-! ### C18 -/

/-- C18 (GGSW): the outcome of the parallel encryption (ciphertext, generator state, panic) is the same
for all schedules. -/
theorem C18_ggsw_schedule (f : GaussianFn w) (key : List (BitVec w)) (N k b : Nat) (s1 s2 : List Nat)
    (r1 r2 : Nat → List Nat) (hs : s1.Nodup) (hp : s1.Perm s2) (hr : ∀ j, (r1 j).Nodup)
    (hrp : ∀ j, (r1 j).Perm (r2 j)) (out : List (BitVec w)) (msg : BitVec w) (g : EncGen) :
    parEncryptGgsw f key N k b s1 r1 out msg g = parEncryptGgsw f key N k b s2 r2 out msg g ∧
    parEncryptSeededGgsw f key N k b s1 r1 out msg g = parEncryptSeededGgsw f key N k b s2 r2 out msg g := by
  have main : ∀ enc rowSize, ggswFill (w := w) enc rowSize key N k b s1 r1 out msg g =
      ggswFill enc rowSize key N k b s2 r2 out msg g := by
    intro enc rowSize
    simp only [ggswFill]
    split
    · rfl
    · rename_i gens g' _
      have e : ggswLevelJob enc rowSize key N k b msg gens r1 = ggswLevelJob enc rowSize key N k b msg gens r2 := by
        funext j matrix
        simp only [ggswLevelJob]
        split
        · rfl
        · split
          · rfl
          · rw [parFor_perm _ (r1 j) (r2 j) (hr j) (hrp j)]
      rw [e, parFor_perm _ s1 s2 hs hp]
  exact ⟨main _ _, main _ _⟩

/-- C18 (GGSW): parallel encryption equals sequential encryption word for word, for every schedule. -/
theorem C18_ggsw_par_eq_seq (f : GaussianFn w) (key : List (BitVec w)) (N k b level : Nat) (hN : 0 < N)
    (sched : List Nat) (rowSched : Nat → List Nat) (hp : sched.Perm (List.range level))
    (hrp : ∀ j, (rowSched j).Perm (List.range (k + 1))) (out : List (BitVec w)) (msg : BitVec w) (g : EncGen) :
    (out.length = level * ((k + 1) * ((k + 1) * N)) →
      parEncryptGgsw f key N k b sched rowSched out msg g = encryptGgsw f key N k b out msg g) ∧
    (out.length = level * ((k + 1) * N) →
      parEncryptSeededGgsw f key N k b sched rowSched out msg g = encryptSeededGgsw f key N k b out msg g) := by
  have h := C18_ggsw_schedule f key N k b sched (List.range level) rowSched (fun _ => List.range (k + 1))
    (hp.nodup_iff.2 List.nodup_range) hp (fun j => (hrp j).nodup_iff.2 List.nodup_range) hrp out msg g
  exact ⟨fun ho => by rw [h.1, encryptGgsw_eq_par f key N k b level hN out msg g ho],
    fun ho => by rw [h.2, encryptSeededGgsw_eq_par f key N k b level hN out msg g ho]⟩

theorem bskFill_congr
    (F1 F2 : Nat → List (BitVec w) → BitVec w → EncGen → Option (List (BitVec w) × EncGen))
    (ggswSize : Nat) (hs : 0 < ggswSize) (lweKey : List (BitVec w)) (N k level n : Nat) (sched : List Nat)
    (out : List (BitVec w)) (ho : out.length = n * ggswSize) (hp : sched.Perm (List.range n)) (g : EncGen)
    (h : ∀ i c s g1, c.length = ggswSize → F1 i c s g1 = F2 i c s g1) :
    bskFill F1 ggswSize lweKey N k level sched out g =
      bskFill F2 ggswSize lweKey N k level (List.range n) out g := by
  simp only [bskFill]
  split
  · rfl
  · rename_i gens g' _
    have hn := hp.nodup_iff.2 List.nodup_range
    rw [parFor_perm _ sched (List.range n) hn hp]
    have hl : (out.map fun _ => 0#w).length = n * ggswSize := by simpa using ho
    have hcl := chunks_length ggswSize hs n _ hl
    have e : parFor (bskJob F1 lweKey gens) (List.range n) (chunks ggswSize (out.map fun _ => 0#w)) =
        parFor (bskJob F2 lweKey gens) (List.range n) (chunks ggswSize (out.map fun _ => 0#w)) := by
      have hj : ∀ i c, (chunks ggswSize (out.map fun _ => 0#w))[i]? = some c →
          bskJob F1 lweKey gens i c = bskJob F2 lweKey gens i c := by
        intro i c hc
        simp only [bskJob]
        split
        · rw [h _ _ _ _ (chunks_len ggswSize hs n _ hl c (List.mem_of_getElem? hc))]
        · rfl
      obtain ⟨a1, b1⟩ := parFor_complete (bskJob F1 lweKey gens) (List.range n)
        (chunks ggswSize (out.map fun _ => 0#w)) (by rw [hcl])
      obtain ⟨a2, b2⟩ := parFor_complete (bskJob F2 lweKey gens) (List.range n)
        (chunks ggswSize (out.map fun _ => 0#w)) (by rw [hcl])
      cases e1 : parFor (bskJob F1 lweKey gens) (List.range n) (chunks ggswSize (out.map fun _ => 0#w)) with
      | none =>
        obtain ⟨i, c, hc, hn⟩ := b1.1 e1
        exact (b2.2 ⟨i, c, hc, by rw [← hj i c hc]; exact hn⟩).symm
      | some r =>
        obtain ⟨l1, l2⟩ := (a1 r).1 e1
        exact ((a2 r).2 ⟨l1, fun i c hc => by rw [← hj i c hc]; exact l2 i c hc⟩).symm
    rw [e]

/-- C18 (bootstrap keys): parallel generation of a standard or seeded bootstrap key equals sequential
generation word for word, including panics and generator states, for every schedule. -/
theorem C18_bootstrap_key (f : GaussianFn w) (lweKey key out : List (BitVec w)) (N k b level : Nat)
    (hN : 0 < N) (hL : 0 < level) (sched : List Nat) (levelSched : Nat → List Nat)
    (rowSched : Nat → Nat → List Nat) (hs : BskSchedules lweKey.length level k sched levelSched rowSched)
    (g : EncGen) :
    (out.length = lweKey.length * (level * ((k + 1) * ((k + 1) * N))) →
      parFillBsk f lweKey key N k b level sched levelSched rowSched out g =
        fillBsk f lweKey key N k b level out g) ∧
    (out.length = lweKey.length * (level * ((k + 1) * N)) →
      parFillSeededBsk f lweKey key N k b level sched levelSched rowSched out g =
        fillSeededBsk f lweKey key N k b level out g) := by
  have hkN : 0 < (k + 1) * N := Nat.mul_pos (by omega) hN
  obtain ⟨s1, s2, s3⟩ := hs
  exact ⟨fun ho => bskFill_congr _ _ _ (Nat.mul_pos hL (Nat.mul_pos (by omega) hkN)) lweKey N k level
      lweKey.length sched out ho s1 g (fun i c s g1 hc =>
        (C18_ggsw_par_eq_seq f key N k b level hN _ _ (s2 i) (s3 i) c s g1).1 hc),
    fun ho => bskFill_congr _ _ _ (Nat.mul_pos hL hkN) lweKey N k level
      lweKey.length sched out ho s1 g (fun i c s g1 hc =>
        (C18_ggsw_par_eq_seq f key N k b level hN _ _ (s2 i) (s3 i) c s g1).2 hc)⟩

/-- Schedules other than the identity exist, and the outcome on them is a ciphertext. -/
example :
    let f : GaussianFn 8 := { accept := fun _ _ => true, value := fun _ _ => (1#8, 2#8) }
    let g : EncGen := { mask := ⟨fun p => BitVec.ofNat 8 (p * p), 1, 1000⟩, noise := ⟨fun p => BitVec.ofNat 8 p, 1, 5000⟩ }
    [1, 0].Perm (List.range 2) ∧
    (parEncryptGgsw f [1#8, 0#8] 2 1 3 [1, 0] (fun j => if j = 0 then [1, 0] else [0, 1]) (List.replicate 16 0#8) 1#8 g).isSome := by
  decide

end Verif.Glwe
