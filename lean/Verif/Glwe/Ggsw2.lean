import Verif.Glwe.Ggsw
/-
Bootstrap keys, plaintexts of the rows, seeded expansion, trivial GGSW.
-/
set_option linter.unusedSectionVars false
namespace Verif.Glwe
open Verif.Random Verif.Poly

variable {w : Nat}

/-! ### What the rows encrypt -/

theorem toRq_scale {R : Type} [CommRing R] (N : Nat) (p : List R) (c : R) :
    toRq N (p.map fun x => x * c) = toRq N p * AdjoinRoot.of _ c := by
  rw [toRq_sum, toRq_sum, Finset.sum_mul, List.length_map]
  apply Finset.sum_congr rfl
  intro i hi
  have hi := Finset.mem_range.1 hi
  have : (p.map fun x => x * c).getD i 0 = p.getD i 0 * c := by
    simp [List.getD_eq_getElem?_getD, List.getElem?_eq_getElem hi]
  rw [this, map_mul]; ring

theorem gadget_eq (w b lev : Nat) : gadget w b lev = (2 : BitVec w) ^ (w - b * lev) := by
  have := BV.shl_eq_mul (1#w) (w - b * lev)
  rw [gadget, this]
  push_cast
  exact one_mul _

theorem of_gadget (N b lev : Nat) :
    AdjoinRoot.of (Polynomial.X ^ N + 1) (gadget w b lev) = 2 ^ (w - b * lev) := by
  rw [gadget_eq, map_pow, map_ofNat]

theorem rowPlaintext_toRq (key : List (BitVec w)) (N k b lev : Nat) (hN : 0 < N) (m : BitVec w) (r : Nat) :
    toRq N (rowPlaintext key N k (-m * gadget w b lev) r) =
      AdjoinRoot.of _ m * 2 ^ (w - b * lev) * rowFactor N k key r := by
  unfold rowPlaintext rowFactor
  split
  · rw [toRq_scale, map_mul, map_neg, of_gadget]; ring
  · rw [toRq_modify N _ 0 _ (by simpa using hN),
      show toRq N (List.replicate N 0#w) = 0 from toRq_zero N N, zero_add, pow_zero, mul_one, mul_one, map_neg,
      map_mul, map_neg, of_gadget]; ring

/-! ### Bootstrap keys -/

/-- The conditions under which the generator can be forked for a bootstrap key. -/
def BskRoom (w n level k N : Nat) (g : EncGen) : Prop :=
  0 < n ∧ 0 < level * ((k + 1) * mB w k N) ∧ 0 < level * ((k + 1) * nB N) ∧
  g.mask.pos + n * (level * ((k + 1) * mB w k N)) ≤ g.mask.bound ∧
  g.noise.pos + n * (level * ((k + 1) * nB N)) ≤ g.noise.bound

theorem bskFill_iff
    (fill : Nat → List (BitVec w) → BitVec w → EncGen → Option (List (BitVec w) × EncGen))
    (ggswSize : Nat) (hs : 0 < ggswSize) (lweKey : List (BitVec w)) (N k level : Nat) (sched : List Nat)
    (hp : sched.Perm (List.range lweKey.length)) (out : List (BitVec w))
    (ho : out.length = lweKey.length * ggswSize) (g g' : EncGen) (res : List (BitVec w))
    (hfill : ∀ i c s g1 c' g2, c.length = ggswSize → fill i c s g1 = some (c', g2) → c'.length = ggswSize) :
    bskFill fill ggswSize lweKey N k level sched out g = some (res, g') ↔
      BskRoom w lweKey.length level k N g ∧
      g' = { mask := g.mask.skip (lweKey.length * (level * ((k + 1) * mB w k N))),
             noise := g.noise.skip (lweKey.length * (level * ((k + 1) * nB N))) } ∧
      res.length = lweKey.length * ggswSize ∧
      ∀ i, i < lweKey.length → ∃ gi,
        fill i (List.replicate ggswSize 0#w) (lweKey.getD i 0)
          (g.slice (level * ((k + 1) * mB w k N)) (level * ((k + 1) * nB N)) i) =
          some (block ggswSize res i, gi) := by
  have hforkd : EncGen.forkBskToGgsw g w lweKey.length level (k + 1) N =
      g.tryFork lweKey.length (level * ((k + 1) * mB w k N)) (level * ((k + 1) * nB N)) := rfl
  simp only [bskFill, hforkd]
  by_cases hroom : BskRoom w lweKey.length level k N g
  · rw [encFork_eq g _ _ _ hroom]
    simp only
    have hjob : ∀ i, i < lweKey.length → ∀ c,
        bskJob fill lweKey ((List.range lweKey.length).map
          (g.slice (level * ((k + 1) * mB w k N)) (level * ((k + 1) * nB N)))) i c =
        (fill i c (lweKey.getD i 0)
          (g.slice (level * ((k + 1) * mB w k N)) (level * ((k + 1) * nB N)) i)).map (·.1) := by
      intro i hi c
      have h1 : ((List.range lweKey.length).map
          (g.slice (level * ((k + 1) * mB w k N)) (level * ((k + 1) * nB N))))[i]? =
          some (g.slice (level * ((k + 1) * mB w k N)) (level * ((k + 1) * nB N)) i) := by simp [hi]
      have h2 : lweKey[i]? = some (lweKey.getD i 0) := by
        rw [List.getD_eq_getElem?_getD, List.getElem?_eq_getElem hi]; rfl
      simp only [bskJob, h1, h2]
    have ho' : (out.map fun _ => 0#w).length = lweKey.length * ggswSize := by simpa using ho
    have hz : ∀ i, i < lweKey.length →
        block ggswSize (out.map fun _ => 0#w) i = List.replicate ggswSize 0#w := by
      intro i hi
      have hl := block_length ggswSize (out.map fun _ => 0#w) i
        (by rw [ho']; exact Nat.mul_le_mul_right _ hi)
      rw [List.eq_replicate_iff]
      refine ⟨hl, fun x hx => ?_⟩
      have := List.mem_of_mem_drop (List.mem_of_mem_take hx)
      obtain ⟨_, _, rfl⟩ := List.mem_map.1 this
      rfl
    have key' := parFor_chunks (bskJob fill lweKey ((List.range lweKey.length).map
          (g.slice (level * ((k + 1) * mB w k N)) (level * ((k + 1) * nB N))))) lweKey.length
      ggswSize hs (out.map fun _ => 0#w) ho' sched hp (by
        intro i c c' hi hcl h
        rw [hjob i hi] at h
        obtain ⟨x, hx, rfl⟩ := Option.map_eq_some_iff.1 h
        exact hfill _ _ _ _ _ _ hcl hx)
    have key2 : ∀ r : List (BitVec w), ((parFor (bskJob fill lweKey ((List.range lweKey.length).map
          (g.slice (level * ((k + 1) * mB w k N)) (level * ((k + 1) * nB N))))) sched
          (chunks ggswSize (out.map fun _ => 0#w))).map List.flatten = some r ↔
        r.length = lweKey.length * ggswSize ∧ ∀ i, i < lweKey.length → ∃ gi,
          fill i (List.replicate ggswSize 0#w) (lweKey.getD i 0)
          (g.slice (level * ((k + 1) * mB w k N)) (level * ((k + 1) * nB N)) i) =
          some (block ggswSize r i, gi)) := by
      intro r
      rw [key' r]
      constructor
      · rintro ⟨h1, h2⟩
        refine ⟨h1, fun i hi => ?_⟩
        have := h2 i hi
        rw [hjob i hi, hz i hi] at this
        obtain ⟨x, hx, e⟩ := Option.map_eq_some_iff.1 this
        exact ⟨x.2, by rw [hx, ← e]⟩
      · rintro ⟨h1, h2⟩
        refine ⟨h1, fun i hi => ?_⟩
        obtain ⟨gi, e⟩ := h2 i hi
        rw [hjob i hi, hz i hi, e]; rfl
    constructor
    · intro h
      split at h
      · cases h
      · rename_i gs e
        simp only [Option.some.injEq, Prod.mk.injEq] at h
        obtain ⟨rfl, rfl⟩ := h
        obtain ⟨k1, k2⟩ := (key2 gs.flatten).1 (by rw [e]; rfl)
        exact ⟨hroom, rfl, k1, k2⟩
    · rintro ⟨_, rfl, h3, h4⟩
      obtain ⟨ms, e1, e2⟩ := Option.map_eq_some_iff.1 ((key2 res).2 ⟨h3, h4⟩)
      rw [e1]
      simp only [e2]
  · constructor
    · intro h
      split at h
      · cases h
      · rename_i gens g2 e
        obtain ⟨h1, h2, h3, h4, h5, _⟩ := encFork_ok e
        exact absurd ⟨h1, h2, h3, h4, h5⟩ hroom
    · rintro ⟨h1, _⟩
      exact absurd h1 hroom

/-! ### Expansion of seeded containers -/

/-- The words of the mask stream from byte `p` on. -/
def maskWords (w : Nat) (g : Src) (p n : Nat) : List (BitVec w) :=
  (List.range n).map fun i => wordAt w g.table (p + i * (w / 8))

theorem expandAux_eq (N k : Nat) : ∀ (cs bs : List (List (BitVec w))) (g : Src),
    (∀ c ∈ cs, CtFits N k c) → cs.length = bs.length → g.pos ≤ g.bound →
    expandGlweListAux N cs bs g = if g.pos + cs.length * mB w k N ≤ g.bound then
      some (bs.mapIdx fun i b => maskWords w g (g.pos + i * mB w k N) (k * N) ++ b,
        g.skip (cs.length * mB w k N)) else none
  | [], [], g, _, _, hg => by simp [expandGlweListAux, skip_zero, hg]
  | c :: cs, b :: bs, g, hc, hl, hg => by
    have hcl : c.length - N = k * N := by
      rw [hc c (by simp), Nat.add_mul, Nat.one_mul]; omega
    have hmul : k * N * (w / 8) = mB w k N := Nat.mul_assoc _ _ _
    simp only [expandGlweListAux, expandGlwe, hcl]
    rw [rep_uniform _ _ _ hg, hmul]
    by_cases h1 : g.pos + mB w k N ≤ g.bound
    · rw [if_pos h1]
      simp only
      have hs : (cs.length + 1) * mB w k N = mB w k N + cs.length * mB w k N := by
        rw [Nat.add_mul, Nat.one_mul, Nat.add_comm]
      rw [expandAux_eq N k cs bs (g.skip (mB w k N)) (fun x hx => hc x (by simp [hx]))
        (by simpa using hl) h1, List.length_cons, hs]
      by_cases h2 : g.pos + mB w k N + cs.length * mB w k N ≤ g.bound
      · have h2' : (g.skip (mB w k N)).pos + cs.length * mB w k N ≤ (g.skip (mB w k N)).bound := h2
        rw [if_pos h2', if_pos (by omega)]
        simp only [skip_skip, List.mapIdx_cons, Option.some.injEq, Prod.mk.injEq, and_true, Nat.zero_mul,
          Nat.add_zero]
        congr 1
        apply List.ext_getElem
        · simp
        · intro i _ _
          simp only [List.getElem_mapIdx]
          have e : (g.skip (mB w k N)).pos + i * mB w k N = g.pos + (i + 1) * mB w k N := by
            simp only [Src.skip]
            rw [Nat.add_mul, Nat.one_mul]; omega
          rw [e]; rfl
      · have h2' : ¬ (g.skip (mB w k N)).pos + cs.length * mB w k N ≤ (g.skip (mB w k N)).bound := h2
        rw [if_neg h2', if_neg (by omega)]
    · rw [if_neg h1, if_neg]
      rw [List.length_cons, Nat.add_mul, Nat.one_mul]; omega

/-- Closed form of the expansion of a seeded GLWE list. -/
theorem expandList_iff (N k m : Nat) (hN : 0 < N) (out bodies : List (BitVec w)) (g g' : Src)
    (ho : out.length = m * ((k + 1) * N)) (hb : bodies.length = m * N) (hg : g.pos ≤ g.bound)
    (res : List (BitVec w)) :
    expandGlweList N k out bodies g = some (res, g') ↔
      g.pos + m * mB w k N ≤ g.bound ∧ g' = g.skip (m * mB w k N) ∧ res.length = m * ((k + 1) * N) ∧
      ∀ i, i < m → block ((k + 1) * N) res i =
        maskWords w g (g.pos + i * mB w k N) (k * N) ++ block N bodies i := by
  have hkN : 0 < (k + 1) * N := Nat.mul_pos (by omega) hN
  have hco := chunks_length _ hkN m out ho
  have hcb := chunks_length N hN m bodies hb
  rw [expandGlweList, expandAux_eq N k _ _ g (chunks_len _ hkN m out ho) (by rw [hco, hcb]) hg, hco]
  have hlen : ∀ x ∈ (chunks N bodies).mapIdx fun i b => maskWords w g (g.pos + i * mB w k N) (k * N) ++ b,
      x.length = (k + 1) * N := by
    intro x hx
    obtain ⟨i, hi, rfl⟩ := List.mem_mapIdx.1 hx
    rw [List.length_append, maskWords, List.length_map, List.length_range,
      chunks_len N hN m bodies hb _ (List.getElem_mem _), Nat.add_mul, Nat.one_mul]
  have hget : ∀ i, i < m →
      ((chunks N bodies).mapIdx fun i b => maskWords w g (g.pos + i * mB w k N) (k * N) ++ b)[i]? =
      some (maskWords w g (g.pos + i * mB w k N) (k * N) ++ block N bodies i) := by
    intro i hi
    rw [List.getElem?_mapIdx, chunks_eq N hN m bodies hb]; simp [hi]
  have hfl := flatten_length_uniform _ _ hlen
  rw [List.length_mapIdx, hcb] at hfl
  constructor
  · intro h
    by_cases h1 : g.pos + m * mB w k N ≤ g.bound
    · rw [if_pos h1] at h
      simp only [Option.some.injEq, Prod.mk.injEq] at h
      obtain ⟨rfl, rfl⟩ := h
      exact ⟨h1, rfl, hfl, fun i hi => block_flatten _ hkN _ hlen i _ (hget i hi)⟩
    · rw [if_neg h1] at h; cases h
  · rintro ⟨h1, rfl, h3, h4⟩
    rw [if_pos h1]
    simp only [Option.some.injEq, Prod.mk.injEq, and_true]
    apply ext_block m _ hkN _ _ hfl h3
    intro i hi
    rw [block_flatten _ hkN _ hlen i _ (hget i hi), h4 i hi]

theorem expandAux_append (N : Nat) : ∀ (cs bs cs' bs' : List (List (BitVec w))) (g : Src),
    cs.length = bs.length →
    expandGlweListAux N (cs ++ cs') (bs ++ bs') g =
      (expandGlweListAux N cs bs g).bind fun r =>
        (expandGlweListAux N cs' bs' r.2).map fun q => (r.1 ++ q.1, q.2)
  | [], [], cs', bs', g, _ => by
    simp only [List.nil_append, expandGlweListAux, Option.bind_some]
    cases expandGlweListAux N cs' bs' g <;> rfl
  | c :: cs, b :: bs, cs', bs', g, h => by
    simp only [List.cons_append, expandGlweListAux]
    cases h1 : expandGlwe N c b g with
    | none => rfl
    | some x =>
      obtain ⟨ct, g1⟩ := x
      simp only
      rw [expandAux_append N cs bs cs' bs' g1 (by simpa using h)]
      cases h2 : expandGlweListAux N cs bs g1 with
      | none => rfl
      | some y =>
        obtain ⟨cts, g2⟩ := y
        simp only [Option.bind_some]
        cases h3 : expandGlweListAux N cs' bs' g2 with
        | none => rfl
        | some z => rfl

/-- The nested expansion loops are one loop over all rows. -/
theorem expandGgswAux_flat (N k : Nat) : ∀ (os bs : List (List (BitVec w))) (g : Src),
    os.length = bs.length →
    (∀ (i : Nat) (o b : List (BitVec w)), os[i]? = some o → bs[i]? = some b →
      (chunks ((k + 1) * N) o).length = (chunks N b).length) →
    (expandGgswAux N k os bs g).map (fun r => (r.1.flatten, r.2)) =
      (expandGlweListAux N (os.map (chunks ((k + 1) * N))).flatten (bs.map (chunks N)).flatten g).map
        fun r => (r.1.flatten, r.2)
  | [], [], g, _, _ => rfl
  | o :: os, b :: bs, g, h, hl => by
    have ih := fun g1 => expandGgswAux_flat N k os bs g1 (by simpa using h)
      (fun i x y hx hy => hl (i + 1) x y (by simpa using hx) (by simpa using hy))
    rw [List.map_cons, List.map_cons, List.flatten_cons, List.flatten_cons,
      expandAux_append N _ _ _ _ _ (hl 0 o b rfl rfl)]
    simp only [expandGgswAux, expandGlweList]
    cases h1 : expandGlweListAux N (chunks ((k + 1) * N) o) (chunks N b) g with
    | none => rfl
    | some x =>
      obtain ⟨cts, g1⟩ := x
      simp only [Option.bind_some]
      have := ih g1
      cases h2 : expandGgswAux N k os bs g1 with
      | none =>
        rw [h2] at this
        cases h3 : expandGlweListAux N (os.map (chunks ((k + 1) * N))).flatten (bs.map (chunks N)).flatten g1 with
        | none => rfl
        | some z => rw [h3] at this; cases this
      | some y =>
        obtain ⟨os', g2⟩ := y
        rw [h2] at this
        cases h3 : expandGlweListAux N (os.map (chunks ((k + 1) * N))).flatten (bs.map (chunks N)).flatten g1 with
        | none => rw [h3] at this; cases this
        | some z =>
          rw [h3] at this
          simp only [Option.map_some, Option.some.injEq, Prod.mk.injEq] at this ⊢
          rw [List.flatten_cons, List.flatten_append, this.1, this.2]
          exact ⟨rfl, rfl⟩

theorem expandGgsw_eq_list (N k level : Nat) (hN : 0 < N) (out bodies : List (BitVec w)) (g : Src)
    (ho : out.length = level * ((k + 1) * ((k + 1) * N))) (hb : bodies.length = level * ((k + 1) * N)) :
    expandGgsw N k out bodies g = expandGlweList N k out bodies g := by
  have hkN : 0 < (k + 1) * N := Nat.mul_pos (by omega) hN
  have hkN2 : 0 < (k + 1) * ((k + 1) * N) := Nat.mul_pos (by omega) hkN
  have h1 := expandGgswAux_flat N k (chunks ((k + 1) * ((k + 1) * N)) out) (chunks ((k + 1) * N) bodies) g
    (by rw [chunks_length _ hkN2 level out ho, chunks_length _ hkN level bodies hb]) (by
      intro i o b ho' hb'
      rw [chunks_length _ hkN (k + 1) o (chunks_len _ hkN2 level out ho o (List.mem_of_getElem? ho')),
        chunks_length _ hN (k + 1) b (chunks_len _ hkN level bodies hb b (List.mem_of_getElem? hb'))])
  rw [chunks_chunks _ _ level hkN (by omega) out ho, chunks_chunks _ _ level hN (by omega) bodies hb] at h1
  simp only [expandGgsw, expandGlweList]
  cases h2 : expandGgswAux N k (chunks ((k + 1) * ((k + 1) * N)) out) (chunks ((k + 1) * N) bodies) g with
  | none =>
    rw [h2] at h1
    cases h3 : expandGlweListAux N (chunks ((k + 1) * N) out) (chunks N bodies) g with
    | none => rfl
    | some z => rw [h3] at h1; cases h1
  | some y =>
    rw [h2] at h1
    cases h3 : expandGlweListAux N (chunks ((k + 1) * N) out) (chunks N bodies) g with
    | none => rw [h3] at h1; cases h1
    | some z =>
      rw [h3] at h1
      exact h1

theorem expandBskAux_flat (N k level : Nat) (hN : 0 < N) : ∀ (os bs : List (List (BitVec w))) (g : Src),
    os.length = bs.length → (∀ o ∈ os, o.length = level * ((k + 1) * ((k + 1) * N))) →
    (∀ b ∈ bs, b.length = level * ((k + 1) * N)) →
    (expandBskAux N k os bs g).map (fun r => (r.1.flatten, r.2)) =
      (expandGlweListAux N (os.map (chunks ((k + 1) * N))).flatten (bs.map (chunks N)).flatten g).map
        fun r => (r.1.flatten, r.2)
  | [], [], g, _, _, _ => rfl
  | o :: os, b :: bs, g, h, ho, hb => by
    have ih := fun g1 => expandBskAux_flat N k level hN os bs g1 (by simpa using h)
      (fun x hx => ho x (by simp [hx])) (fun x hx => hb x (by simp [hx]))
    have hkN : 0 < (k + 1) * N := Nat.mul_pos (by omega) hN
    have hol := ho o (by simp)
    have hbl := hb b (by simp)
    rw [List.map_cons, List.map_cons, List.flatten_cons, List.flatten_cons,
      expandAux_append N _ _ _ _ _ (by
        rw [chunks_length _ hkN (level * (k + 1)) o (by rw [hol, Nat.mul_assoc]),
          chunks_length _ hN (level * (k + 1)) b (by rw [hbl, Nat.mul_assoc])])]
    simp only [expandBskAux]
    rw [expandGgsw_eq_list N k level hN o b g hol hbl]
    simp only [expandGlweList]
    cases h1 : expandGlweListAux N (chunks ((k + 1) * N) o) (chunks N b) g with
    | none => rfl
    | some x =>
      obtain ⟨cts, g1⟩ := x
      simp only [Option.bind_some]
      have := ih g1
      cases h2 : expandBskAux N k os bs g1 with
      | none =>
        rw [h2] at this
        cases h3 : expandGlweListAux N (os.map (chunks ((k + 1) * N))).flatten (bs.map (chunks N)).flatten g1 with
        | none => rfl
        | some z => rw [h3] at this; cases this
      | some y =>
        obtain ⟨os', g2⟩ := y
        rw [h2] at this
        cases h3 : expandGlweListAux N (os.map (chunks ((k + 1) * N))).flatten (bs.map (chunks N)).flatten g1 with
        | none => rw [h3] at this; cases this
        | some z =>
          rw [h3] at this
          simp only [Option.map_some, Option.some.injEq, Prod.mk.injEq] at this ⊢
          rw [List.flatten_cons, List.flatten_append, this.1, this.2]
          exact ⟨rfl, rfl⟩

theorem expandBsk_eq_list (N k level n : Nat) (hN : 0 < N) (hL : 0 < level) (out bodies : List (BitVec w))
    (g : Src) (ho : out.length = n * (level * ((k + 1) * ((k + 1) * N))))
    (hb : bodies.length = n * (level * ((k + 1) * N))) :
    expandBsk N k level out bodies g = expandGlweList N k out bodies g := by
  have hkN : 0 < (k + 1) * N := Nat.mul_pos (by omega) hN
  have hb1 : 0 < level * ((k + 1) * N) := Nat.mul_pos hL hkN
  have ho1 : 0 < level * ((k + 1) * ((k + 1) * N)) := Nat.mul_pos hL (Nat.mul_pos (by omega) hkN)
  have h1 := expandBskAux_flat N k level hN (chunks (level * ((k + 1) * ((k + 1) * N))) out)
    (chunks (level * ((k + 1) * N)) bodies) g
    (by rw [chunks_length _ ho1 n out ho, chunks_length _ hb1 n bodies hb])
    (chunks_len _ ho1 n out ho) (chunks_len _ hb1 n bodies hb)
  have e1 := chunks_chunks ((k + 1) * N) (level * (k + 1)) n hkN (Nat.mul_pos hL (by omega)) out
    (by rw [ho, Nat.mul_assoc])
  have e2 := chunks_chunks N (level * (k + 1)) n hN (Nat.mul_pos hL (by omega)) bodies
    (by rw [hb, Nat.mul_assoc])
  rw [Nat.mul_assoc] at e1 e2
  rw [e1, e2] at h1
  simp only [expandBsk, expandGlweList]
  cases h2 : expandBskAux N k (chunks (level * ((k + 1) * ((k + 1) * N))) out)
    (chunks (level * ((k + 1) * N)) bodies) g with
  | none =>
    rw [h2] at h1
    cases h3 : expandGlweListAux N (chunks ((k + 1) * N) out) (chunks N bodies) g with
    | none => rfl
    | some z => rw [h3] at h1; cases h1
  | some y =>
    rw [h2] at h1
    cases h3 : expandGlweListAux N (chunks ((k + 1) * N) out) (chunks N bodies) g with
    | none => rw [h3] at h1; cases h1
    | some z =>
      rw [h3] at h1
      exact h1

end Verif.Glwe
