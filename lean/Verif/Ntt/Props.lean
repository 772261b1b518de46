import Verif.Ntt.Switch
import Verif.Pbs.Props2
/-
C34, C35, C37, C38, and the accuracy of the NTT as a transform for the external product (C27-C31).

Vocabulary: Verif.Ntt.Spec (`Valid`, `evalAt`, `nodeConst`, `Reduced`, `Tables.Reduced`, `Tables.toZ`, `Room`,
`Suits`), `negaConv` (Verif.Poly.Spec).
-/
set_option linter.unusedSectionVars false
namespace Verif.Ntt
open Verif.Poly Verif.BV

variable {W w : Nat}

/-! ### C37 -/

/-- C37: on reduced elements, the operations of `ModQ` return the reduced result of the integer operation
modulo `q`, and no intermediate value overflows the machine word. -/
theorem C37_operations (q : BitVec W) (hq : Room q) (a b : ModQ W) (ha : Reduced q a) (hb : Reduced q b) :
    (Reduced q (a.add b) ∧ (a.add b).val.toNat = (a.val.toNat + b.val.toNat) % q.toNat ∧
      a.val.toNat + b.val.toNat < 2 ^ W) ∧
    (Reduced q (a.mul b) ∧ (a.mul b).val.toNat = (a.val.toNat * b.val.toNat) % q.toNat ∧
      a.val.toNat * b.val.toNat < 2 ^ W) ∧
    (Reduced q a.neg ∧ (a.neg.val.toNat : Int) = (-(a.val.toNat : Int)) % q.toNat ∧ a.val.toNat ≤ q.toNat) ∧
    (Reduced q (a.sub b) ∧ ((a.sub b).val.toNat : Int) = ((a.val.toNat : Int) - b.val.toNat) % q.toNat ∧
      a.val.toNat + b.neg.val.toNat < 2 ^ W) := by
  have ra := ha.rel
  have rb := hb.rel
  have hs := ra.sub hq rb
  have hn := ra.neg hq
  have hnb := rb.neg hq
  have key : ∀ (c : ModQ W) (z : Int), Rel q c (z : ZMod q.toNat) → (c.val.toNat : Int) = z % q.toNat := by
    intro c z hc
    have h1 := hc.val
    rw [← Int.cast_natCast, ZMod.intCast_eq_intCast_iff', Int.emod_eq_of_lt (by omega) (by exact_mod_cast hc.red)] at h1
    exact h1
  refine ⟨⟨⟨ra.mod, (ra.add hq rb).red⟩, toNat_add_mod hq ra rb, ?_⟩, ⟨⟨ra.mod, (ra.mul hq rb).red⟩,
    toNat_mul_mod hq ra rb, ?_⟩, ⟨⟨hn.mod, hn.red⟩, ?_, ha.2.le⟩, ⟨hs.mod, hs.red⟩, ?_, ?_⟩
  · have := hq.double; have := ha.2; have := hb.2; omega
  · exact (Nat.mul_lt_mul'' ha.2 hb.2).trans_le hq.sq
  · exact key _ _ (by simpa [toZ] using hn)
  · exact key _ _ (by simpa [toZ] using hs)
  · have := hq.double; have := ha.2; have := hnb.red; omega

/-- C37: construction and assignment reduce their argument. -/
theorem C37_reduce (q : BitVec W) (hq : 0 < q.toNat) (v : BitVec W) (a : ModQ W) (ha : a.q = q) :
    Reduced q (ModQ.new v q) ∧ (ModQ.new v q).val.toNat = v.toNat % q.toNat ∧
    Reduced q (a.set v) ∧ (a.set v).val.toNat = v.toNat % q.toNat := by
  subst ha
  have := Nat.mod_lt v.toNat hq
  exact ⟨⟨rfl, by rw [ModQ.new]; simpa⟩, by rw [ModQ.new]; simp, ⟨rfl, by rw [ModQ.set]; simpa⟩,
    by rw [ModQ.set]; simp⟩

/-- The modulus must leave room for products: with a modulus larger than half of the word, sums wrap and the
result is wrong. -/
theorem C37_room_needed : ∃ (q : BitVec 8) (a b : ModQ 8), Reduced q a ∧ Reduced q b ∧
    (a.add b).val.toNat ≠ (a.val.toNat + b.val.toNat) % q.toNat :=
  ⟨251#8, ⟨250#8, 251#8⟩, ⟨250#8, 251#8⟩, by decide, by decide, by decide⟩

example : Room (18446744073709436929#128) := ⟨by decide, by decide⟩
example : Reduced (17#16) ⟨13#16, 17#16⟩ ∧ (ModQ.sub ⟨3#16, 17#16⟩ ⟨13#16, 17#16⟩).val = 7#16 := by decide

/-! ### C38 -/

/-- C38: switching a torus element `x` to modulus `q` gives the nearest integer to `x * q / 2^w`, modulo
`q`; no intermediate value overflows. -/
theorem C38_into (q : BitVec W) (hq : Suits w q) (a : ModQ W) (ha : a.q = q) (x : BitVec w) :
    Reduced q (a.modSwitchInto x) ∧ x.toNat * q.toNat + 2 ^ (w - 1) < 2 ^ W ∧
    ∃ G : Nat, (a.modSwitchInto x).val.toNat = G % q.toNat ∧
      |2 * ((G : Int) * 2 ^ w - (x.toNat : Int) * q.toNat)| ≤ 2 ^ w := by
  obtain ⟨h1, h2⟩ := into_val hq a ha x
  have := into_rel hq a ha x
  exact ⟨⟨this.mod, this.red⟩, into_no_overflow hq x, _, h1, roundInto_near hq.wpos _ _⟩

/-- C38: switching an element `v` modulo `q` to the torus gives the nearest integer to `v * 2^w / q`, modulo
`2^w`; no intermediate value overflows. -/
theorem C38_from (q : BitVec W) (hq : Suits w q) (a : ModQ W) (ha : Reduced q a) :
    a.val.toNat * 2 ^ w + q.toNat / 2 < 2 ^ W ∧
    ∃ F : Int, a.modSwitchFrom w = (F : BitVec w) ∧
      |2 * ((q.toNat : Int) * F - a.val.toNat * 2 ^ w)| ≤ q.toNat := by
  refine ⟨from_no_overflow hq _ ha.2, ?_⟩
  have := from_near hq a (a.val.toNat : Int) ⟨ha.1, ha.2, by simp⟩
  exact this

/-- C38: an element switched to modulus `q` and back is changed by at most `(2^w + q) / 2q`. -/
theorem C38_round_trip (q : BitVec W) (hq : Suits w q) (a : ModQ W) (ha : a.q = q) (x : BitVec w) :
    ∃ δ : Int, (a.modSwitchInto x).modSwitchFrom w = x + (δ : BitVec w) ∧
      2 * q.toNat * |δ| ≤ 2 ^ w + q.toNat := by
  obtain ⟨F, f1, f2⟩ := from_near hq _ _ (into_rel hq a ha x)
  have g := roundInto_near hq.wpos q.toNat x.toNat
  refine ⟨F - x.toNat, ?_, ?_⟩
  · rw [f1]; push_cast; rw [natCast_toNat]; ring
  · have hq0 : (0 : Int) ≤ 2 * q.toNat := by positivity
    rw [← abs_of_nonneg hq0, ← abs_mul]
    have : 2 * (q.toNat : Int) * (F - x.toNat) = 2 * ((q.toNat : Int) * F - (roundInto w q.toNat x.toNat : Nat) * 2 ^ w) +
        2 * ((roundInto w q.toNat x.toNat : Nat) * 2 ^ w - (x.toNat : Int) * q.toNat) := by ring
    rw [this]
    refine (abs_add_le _ _).trans ?_
    omega

/-- C38: for a modulus above `2^w / 3` the change is at most 1. -/
theorem C38_round_trip_one (q : BitVec W) (hq : Suits w q) (h3 : 2 ^ w < 3 * q.toNat) (a : ModQ W) (ha : a.q = q)
    (x : BitVec w) :
    ∃ δ : Int, (a.modSwitchInto x).modSwitchFrom w = x + (δ : BitVec w) ∧ |δ| ≤ 1 := by
  obtain ⟨δ, h1, h2⟩ := C38_round_trip q hq a ha x
  refine ⟨δ, h1, ?_⟩
  by_contra hc
  have h4 : 2 ≤ |δ| := by omega
  have h5 : 2 * (q.toNat : Int) * 2 ≤ 2 * q.toNat * |δ| := mul_le_mul_of_nonneg_left h4 (by positivity)
  have h6 : ((2 ^ w : Nat) : Int) < ((3 * q.toNat : Nat) : Int) := by exact_mod_cast h3
  push_cast at h6
  omega

/-- C38: a reduced element switched to the torus and back is unchanged. -/
theorem C38_round_trip_q (q : BitVec W) (hq : Suits w q) (a b : ModQ W) (ha : Reduced q a) (hb : b.q = q) :
    b.modSwitchInto (a.modSwitchFrom w) = a := by
  have hpos := hq.pos
  have hlt := hq.lt
  have hv := ha.2
  have hd1 := Nat.div_add_mod (a.val.toNat * 2 ^ w + q.toNat / 2) q.toNat
  have hm := Nat.mod_lt (a.val.toNat * 2 ^ w + q.toNat / 2) (show 0 < q.toNat by omega)
  have e := from_val hq a ha
  have hdlt : (a.val.toNat * 2 ^ w + q.toNat / 2) / q.toNat < 2 ^ w := by
    rw [Nat.div_lt_iff_lt_mul (by omega)]
    have : (a.val.toNat + 1) * 2 ^ w ≤ q.toNat * 2 ^ w := Nat.mul_le_mul_right _ (by omega)
    rw [Nat.add_mul] at this
    rw [Nat.mul_comm (2 ^ w)]
    omega
  obtain ⟨i1, i2⟩ := into_val hq b hb (a.modSwitchFrom w)
  have e2 : (a.modSwitchFrom w).toNat = (a.val.toNat * 2 ^ w + q.toNat / 2) / q.toNat := by
    rw [e, toNat_cast, Nat.mod_eq_of_lt hdlt]
  rw [e2] at i1
  generalize (a.val.toNat * 2 ^ w + q.toNat / 2) / q.toNat = d at *
  generalize (a.val.toNat * 2 ^ w + q.toNat / 2) % q.toNat = m at *
  have hr : roundInto w q.toNat d = a.val.toNat := by
    rw [roundInto]
    have hp := half_pow hq.wpos
    rw [Nat.div_eq_iff (by positivity)]
    rw [Nat.mul_comm d]
    omega
  rw [hr, Nat.mod_eq_of_lt hv] at i1
  obtain ⟨a1, a2⟩ := a
  have : b.modSwitchInto (ModQ.modSwitchFrom w ⟨a1, a2⟩) = ⟨(b.modSwitchInto (ModQ.modSwitchFrom w ⟨a1, a2⟩)).val,
    (b.modSwitchInto (ModQ.modSwitchFrom w ⟨a1, a2⟩)).q⟩ := rfl
  rw [this, ModQ.mk.injEq]
  exact ⟨BitVec.eq_of_toNat_eq i1, i2.trans ha.1.symm⟩

/-- C38: a small signed value `d` is lifted exactly to `d mod q`, as long as `|d| (2^w - q) < 2^(w-1)`. -/
theorem C38_digit (q : BitVec W) (hq : Suits w q) (a : ModQ W) (ha : a.q = q) (x : BitVec w)
    (hx : |x.toInt| * (2 ^ w - q.toNat) < 2 ^ (w - 1)) :
    ((a.modSwitchInto x).val.toNat : Int) = x.toInt % q.toNat := by
  have h := into_rel hq a ha x
  have h1 := h.val
  rw [roundInto_small hq.wpos hq.lt x hx, ← Int.cast_natCast, ZMod.intCast_eq_intCast_iff',
    Int.emod_eq_of_lt (by omega) (by exact_mod_cast h.red)] at h1
  exact h1

/-- The modulus shipped for 32-bit tori. -/
def MOD_32 : BitVec 64 := 4294828033#64
/-- The modulus shipped for 64-bit tori. -/
def MOD_64 : BitVec 128 := 18446744073709436929#128

theorem suits32 : Suits 32 MOD_32 := ⟨by decide, by decide, by decide, by decide⟩
theorem suits64 : Suits 64 MOD_64 := ⟨by decide, by decide, by decide, by decide⟩

/-- C38: with the shipped moduli, the digits of a decomposition with base up to `2^14` (32-bit tori) and
`2^47` (64-bit tori) are lifted exactly. -/
theorem C38_digit_shipped :
    (∀ (a : ModQ 64) (x : BitVec 32), a.q = MOD_32 → |x.toInt| ≤ 2 ^ 13 →
      ((a.modSwitchInto x).val.toNat : Int) = x.toInt % MOD_32.toNat) ∧
    (∀ (a : ModQ 128) (x : BitVec 64), a.q = MOD_64 → |x.toInt| ≤ 2 ^ 46 →
      ((a.modSwitchInto x).val.toNat : Int) = x.toInt % MOD_64.toNat) := by
  refine ⟨fun a x ha hx => C38_digit MOD_32 suits32 a ha x ?_, fun a x ha hx => C38_digit MOD_64 suits64 a ha x ?_⟩
  · have : (2 ^ 32 - (MOD_32.toNat : Int)) = 139263 := by decide
    rw [this]; omega
  · have : (2 ^ 64 - (MOD_64.toNat : Int)) = 114687 := by decide
    rw [this]; omega

/-- C38, disagreement: for 32-bit tori, digits that a decomposition of base `2^15` produces are not lifted
exactly by the shipped modulus, so that the product of the NTT is off by a full coefficient of the GGSW. -/
theorem C38_digit_violated : ∃ (a : ModQ 64) (x : BitVec 32), a.q = MOD_32 ∧ |x.toInt| ≤ 2 ^ 14 ∧
    ((a.modSwitchInto x).val.toNat : Int) ≠ x.toInt % MOD_32.toNat :=
  ⟨⟨0, MOD_32⟩, 16000#32, rfl, by decide, by decide⟩

example : Suits 4 (17#16 >>> 1#16 + 5#16) := ⟨by decide, by decide, by decide, by decide⟩
example : ((⟨0, MOD_32⟩ : ModQ 64).modSwitchInto (-5000#32)).val = MOD_32 - 5000#64 := by decide
example : (((⟨0, MOD_32⟩ : ModQ 64).modSwitchInto 0x12345678#32).modSwitchFrom 32) = 0x12345678#32 := by decide

/-! ### C34 -/

/-- All the indices used by the transforms are in range: no access panics. -/
theorem index_safe (log scale i j : Nat) (hs : scale < log) :
    (i < 2 ^ scale → j ∈ List.range' (2 * i * 2 ^ (log - 1 - scale)) (2 ^ (log - 1 - scale)) →
      j + 2 ^ (log - 1 - scale) < 2 ^ log ∧ 2 ^ scale + i < 2 ^ log) ∧
    (i < 2 ^ (log - 1 - scale) → j ∈ List.range' (i * (2 * 2 ^ scale)) (2 ^ scale) →
      j + 2 ^ scale < 2 ^ log ∧ 2 ^ (log - 1 - scale) + i < 2 ^ log) := by
  have e : 2 ^ log = 2 * (2 ^ scale * 2 ^ (log - 1 - scale)) := by
    rw [← pow_add, ← pow_succ']; congr 1; omega
  have p1 : 0 < 2 ^ scale := by positivity
  have p2 : 0 < 2 ^ (log - 1 - scale) := by positivity
  generalize 2 ^ scale = m at *
  generalize 2 ^ (log - 1 - scale) = t at *
  constructor
  · intro hi hj
    rw [List.mem_range'_1] at hj
    have h1 : (i + 1) * t ≤ m * t := Nat.mul_le_mul_right _ hi
    have h2 : m * 1 ≤ m * t := Nat.mul_le_mul_left _ p2
    have h3 : 2 * i * t = 2 * (i * t) := by ring
    rw [Nat.add_mul] at h1
    omega
  · intro hi hj
    rw [List.mem_range'_1] at hj
    have h1 : m * (i + 1) ≤ m * t := Nat.mul_le_mul_left _ hi
    have h2 : 1 * t ≤ m * t := Nat.mul_le_mul_right _ p1
    have h3 : i * (2 * m) = 2 * (m * i) := by ring
    rw [Nat.mul_add] at h1
    omega

/-- C34: for valid tables, the backward transform inverts the forward transform on every polynomial of
reduced elements. -/
theorem C34_round_trip (q : BitVec W) (hq : Room q) (T : Tables (ModQ W)) (hT : T.Reduced q) (hv : Valid (T.toZ q))
    (p : List (ModQ W)) (hp : p.length = 2 ^ T.logSize) (hr : ∀ a ∈ p, Reduced q a) :
    backward (modqOps q) T (forward (modqOps q) T p) = p := by
  have h1 := rel_list hr
  have h2 := backward_rel hq hT (forward_rel hq hT h1)
  rw [backward_forward hv (p.map (toZ q)) (by rw [List.length_map]; exact hp)] at h2
  exact h2.inj h1

/-- C34: the forward transform evaluates the polynomial, modulo `q`, at the roots `z_i` of `X^N + 1` given
by the tables; its results are reduced. -/
theorem C34_forward (q : BitVec W) (hq : Room q) (T : Tables (ModQ W)) (hT : T.Reduced q) (hv : Valid (T.toZ q))
    (p : List (ModQ W)) (hp : p.length = 2 ^ T.logSize) (hr : ∀ a ∈ p, Reduced q a) :
    (forward (modqOps q) T p).length = 2 ^ T.logSize ∧
    (∀ a ∈ forward (modqOps q) T p, Reduced q a) ∧
    ∀ i, i < 2 ^ T.logSize → ∃ z : ZMod q.toNat, z ^ 2 ^ T.logSize = -1 ∧
      ((forward (modqOps q) T p).map (toZ q)).getD i 0 = evalAt (p.map (toZ q)) z := by
  have h1 := forward_rel hq hT (rel_list hr)
  obtain ⟨f1, f2⟩ := forward_eval hv (p.map (toZ q)) (by rw [List.length_map]; exact hp)
  refine ⟨by rw [h1.length_eq, f1]; rfl, h1.reduced, fun i hi => ?_⟩
  rw [h1.map_toZ]
  obtain ⟨f3, f4⟩ := f2 i hi
  exact ⟨_, f4, f3⟩

/-! ### C35 -/

/-- C35: accumulating pointwise products of forward transforms, starting from zero, and transforming
backward, gives the sum of the negacyclic products modulo `q`. -/
theorem C35_convolution (q : BitVec W) (hq : Room q) (T : Tables (ModQ W)) (hT : T.Reduced q) (hv : Valid (T.toZ q))
    (ps : List (List (ModQ W) × List (ModQ W)))
    (hp : ∀ x ∈ ps, x.1.length = 2 ^ T.logSize ∧ x.2.length = 2 ^ T.logSize ∧
      (∀ a ∈ x.1, Reduced q a) ∧ ∀ a ∈ x.2, Reduced q a) :
    let r := backward (modqOps q) T (ps.foldl (fun acc x => mulAcc (modqOps q) acc
      (forward (modqOps q) T x.1) (forward (modqOps q) T x.2)) (List.replicate (2 ^ T.logSize) (ModQ.new 0 q)))
    r.length = 2 ^ T.logSize ∧ (∀ a ∈ r, Reduced q a) ∧
    ∀ k, k < 2 ^ T.logSize → (r.map (toZ q)).getD k 0 =
      (ps.map fun x => negaConv (2 ^ T.logSize) (x.1.map (toZ q)) (x.2.map (toZ q)) k).sum := by
  intro r
  set N := 2 ^ T.logSize with hN
  have hN0 : 0 < N := by rw [hN]; positivity
  set zs := ps.map fun x => (x.1.map (toZ q), x.2.map (toZ q)) with hzs
  have hz : ∀ x ∈ zs, x.1.length = N ∧ x.2.length = N := by
    intro x hx
    obtain ⟨y, hy, rfl⟩ := List.mem_map.1 hx
    obtain ⟨a, b, _⟩ := hp y hy
    exact ⟨by simpa using a, by simpa using b⟩
  have hs : ((List.range N).map (convSum N zs)).length = N := by simp
  have hf := forward_sum hv zs hz _ hs (toRq_convSum N hN0 zs hz)
  have hrel : RelL q (ps.foldl (fun acc x => mulAcc (modqOps q) acc
      (forward (modqOps q) T x.1) (forward (modqOps q) T x.2)) (List.replicate N (ModQ.new 0 q)))
      (zs.foldl (fun acc x => mulAcc (ringOps _) acc (forward (ringOps _) (T.toZ q) x.1)
        (forward (ringOps _) (T.toZ q) x.2)) (List.replicate N 0)) := by
    rw [hzs, List.foldl_map]
    have main : ∀ (ps : List (List (ModQ W) × List (ModQ W))) (l : List (ModQ W)) (x : List (ZMod q.toNat)),
        (∀ x ∈ ps, x.1.length = N ∧ x.2.length = N ∧ (∀ a ∈ x.1, Reduced q a) ∧ ∀ a ∈ x.2, Reduced q a) →
        RelL q l x → RelL q (ps.foldl (fun acc x => mulAcc (modqOps q) acc
          (forward (modqOps q) T x.1) (forward (modqOps q) T x.2)) l)
          (ps.foldl (fun acc y => mulAcc (ringOps _) acc (forward (ringOps _) (T.toZ q) (y.1.map (toZ q)))
            (forward (ringOps _) (T.toZ q) (y.2.map (toZ q)))) x) := by
      intro ps
      induction ps with
      | nil => intro l x _ h; exact h
      | cons y ps ih =>
        intro l x hx h
        obtain ⟨_, _, y1, y2⟩ := hx y (List.mem_cons_self ..)
        exact ih _ _ (fun z hz => hx z (List.mem_cons_of_mem _ hz))
          (mulAcc_rel hq h (forward_rel hq hT (rel_list y1)) (forward_rel hq hT (rel_list y2)))
    exact main ps _ _ hp (replicate_rel hq N)
  have hb := backward_rel hq hT hrel
  rw [show List.replicate N (0 : ZMod q.toNat) = List.replicate (2 ^ (T.toZ q).logSize) 0 from rfl, hf,
    backward_forward hv _ hs] at hb
  refine ⟨by rw [hb.length_eq, hs], hb.reduced, fun k hk => ?_⟩
  rw [hb.map_toZ, List.getD_eq_getElem?_getD, List.getElem?_map, List.getElem?_range hk]
  simp only [Option.map_some, Option.getD_some, convSum, hzs, List.map_map]
  rfl

/-- C35: one product. -/
theorem C35_product (q : BitVec W) (hq : Room q) (T : Tables (ModQ W)) (hT : T.Reduced q) (hv : Valid (T.toZ q))
    (x y : List (ModQ W)) (hx : x.length = 2 ^ T.logSize) (hy : y.length = 2 ^ T.logSize)
    (rx : ∀ a ∈ x, Reduced q a) (ry : ∀ a ∈ y, Reduced q a) (k : Nat) (hk : k < 2 ^ T.logSize) :
    ((backward (modqOps q) T (mulAcc (modqOps q) (List.replicate (2 ^ T.logSize) (ModQ.new 0 q))
      (forward (modqOps q) T x) (forward (modqOps q) T y))).map (toZ q)).getD k 0 =
      negaConv (2 ^ T.logSize) (x.map (toZ q)) (y.map (toZ q)) k := by
  have h := (C35_convolution q hq T hT hv [(x, y)] (by simpa using ⟨hx, hy, rx, ry⟩)).2.2 k hk
  simpa using h

end Verif.Ntt
