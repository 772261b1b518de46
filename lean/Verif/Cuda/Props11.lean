import Verif.Cuda.LowLatencyLemmas
import Verif.Cuda.Props10
/-
Property C81: the low latency bootstrap of CUDA evaluates the lookup table at the phase of the input, for the schedules
without the race of C76.
-/
set_option linter.unusedSectionVars false
namespace Verif.Cuda.Am
open Verif.Pbs Verif.Poly Verif.Glwe Verif.Decomp Verif.Cuda.Grid

variable {w : Nat}

/-- The accumulators of the specification of C76 are the polynomials of a sequential loop. -/
theorem accAt_eq (G : GpuTransform w) (N k b l n : Nat) (hN : 0 < N)
    (hlen : ∀ p e, p.length = N → (G.addBack p e).length = N) (key : List G.E) (lut lwe : Nat → List (BitVec w))
    (z : Nat) (hlut : CtFits N k (lut z)) (i : Nat) :
    CtFits N k ((List.range i).foldl (fun acc it => lowStep G N k b l key it acc (exponent N (lwe z) it))
      (listMonomialDiv N (lut z) (exponent N (lwe z) n))) ∧
    ∀ x y, y < k + 1 → Low.accAt (kernel G N k b l key lwe) k l (firstAcc N n lut lwe) i x y z =
      block N ((List.range i).foldl (fun acc it => lowStep G N k b l key it acc (exponent N (lwe z) it))
        (listMonomialDiv N (lut z) (exponent N (lwe z) n))) y := by
  induction i with
  | zero =>
    refine ⟨(phase_mono N k hN (lut z) (lut z) hlut _).2.1, fun x y hy => ?_⟩
    rw [Low.accAt, firstAcc]
    exact (C23_list N (k + 1) hN (lut z) hlut _ y hy).2.symm
  | succ i ih =>
    obtain ⟨h1, h2⟩ := ih
    rw [List.range_succ, List.foldl_append, List.foldl_cons, List.foldl_nil]
    generalize (List.range i).foldl (fun acc it => lowStep G N k b l key it acc (exponent N (lwe z) it))
      (listMonomialDiv N (lut z) (exponent N (lwe z) n)) = C at *
    have hall : ∀ (f : Nat → G.E), ∀ x ∈ (List.range (k + 1)).map (fun c => G.addBack (block N C c) (f c)),
        x.length = N := by
      intro f x hx
      obtain ⟨c, hc, rfl⟩ := List.mem_map.1 hx
      exact hlen _ _ (block_len N (k + 1) c C h1 (List.mem_range.1 hc))
    constructor
    · simp only [lowStep]
      rw [CtFits, flatten_length_uniform N _ (hall _)]
      simp
    · intro x y hy
      simp only [lowStep]
      rw [block_flatten N hN _ (hall _) y _ (by simp only [List.getElem?_map, List.getElem?_range hy]; rfl), Low.accAt,
        h2 x y hy]
      simp only [kernel, Low.external, Low.joined, Low.product]
      have hm : ∀ a, a % (k + 1) < k + 1 := fun a => Nat.mod_lt _ (Nat.succ_pos k)
      have h2' : ∀ x y, y < k + 1 → Low.accAt ({
          prep := fun i x _ z acc => G.fwdDigit (lastDigits b (l - x) (gadgetState b l
            (rotateSub acc (exponent N (lwe z) i)))),
          mul := fun i x y c p => G.mul p (key.getD (keyIndex k l i x y c) G.zero),
          add := G.add, finish := fun acc p => G.addBack acc p } : Low.Kernel G.E (List (BitVec w))) k l
          (firstAcc N n lut lwe) i x y z = block N C y := h2
      simp only [h2' _ y hy, h2' _ _ (hm _)]

/-- The blocks of level 0 of ciphertext `z`, their accumulators one after the other. -/
def accumulators {G : GpuTransform w} {k l m : Nat} (hl : 0 < l)
    (s : State (Low.Block k l m) Low.Place G.E (Low.Regs G.E (List (BitVec w)))) (z : Fin m) : List (BitVec w) :=
  ((List.finRange (k + 1)).map fun y => (s.blk (⟨0, hl⟩, y, z)).own.acc).flatten

theorem low_core (G : GpuTransform w) (N k b l m : Nat) (hN : 0 < N) (hw : 32 ≤ w) (hb : b ≤ 31)
    (D B S E : Int) (hG : G.Accurate N (l * (k + 1)) D B)
    (hlen : ∀ p e, p.length = N → (G.addBack p e).length = N) (hD : 2 ^ (b - 1) ≤ D) (h : ValidParams w b l)
    (hS0 : 0 ≤ S) (lweKey key bsk v lweOut : List (BitVec w)) (lut lwe : Nat → List (BitVec w))
    (hk : KeyFits N k key) (hS : KeyBound S key) (hs : Lwe.BinaryKey lweKey) (hbsk : BskEnc N k b l lweKey key bsk E)
    (z : Fin m) (hlut : CtFits N k (lut z)) (hv : v.length = N) (hphase : glwePhase N k key (lut z) = toRq N v)
    (hin : Lwe.Fits lweKey (lwe z)) (hout : lweOut.length = k * N + 1)
    (hdeg : ∀ i, i ≤ lweKey.length → ∃ d, rescaleTorusElement ((lwe z).getD i 0) (2 * N) = some d)
    (mem : Low.Place → G.E) (regs : Low.Block k l m → Low.Regs G.E (List (BitVec w)))
    (hr : ∀ bl, (regs bl).acc = firstAcc N lweKey.length lut lwe bl.1 bl.2.1 bl.2.2)
    (sched : List (Low.Block k l m)) (p : Low.Block k l m → Prog Low.Place G.E (Low.Regs G.E (List (BitVec w))))
    (hp : p = Low.program (kernel G N k b l (convert G.toTransform N bsk) lwe) lweKey.length k l m)
    (hcalm : l ≤ 1 ∨ lweKey.length ≤ 1 ∨ Calm p sched (start p mem regs))
    (hdone : Done p (run p sched (start p mem regs))) :
    ∃ r, sampleExtract N (accumulators h.level (run p sched (start p mem regs)) z) lweOut 0 = some r ∧
      Lwe.Fits key r ∧
      ∀ d, d + ∑ i ∈ Finset.range lweKey.length, exponent N (lwe z) i * (lweKey.getD i 0).toNat ≡
          exponent N (lwe z) lweKey.length [MOD 2 * N] →
        |(Lwe.phase key r - ext N v d).toInt| ≤ lweKey.length * epBound w N k b l S E B 1 := by
  have hfin : ∀ bl : Low.Block k l m, ((run p sched (start p mem regs)).blk bl).own.acc =
      Low.accAt (kernel G N k b l (convert G.toTransform N bsk) lwe) k l (firstAcc N lweKey.length lut lwe)
        lweKey.length bl.1 bl.2.1 bl.2.2 := fun bl => by
    subst hp
    rcases hcalm with h1 | h1 | h1
    · exact Low.C76_one_level (kernel G N k b l (convert G.toTransform N bsk) lwe) lweKey.length k l m (.inl h1)
        (firstAcc N lweKey.length lut lwe) mem regs hr sched hdone bl
    · exact Low.C76_one_level (kernel G N k b l (convert G.toTransform N bsk) lwe) lweKey.length k l m (.inr h1)
        (firstAcc N lweKey.length lut lwe) mem regs hr sched hdone bl
    · exact Low.C76_low_latency_partial (kernel G N k b l (convert G.toTransform N bsk) lwe) lweKey.length k l m
        (firstAcc N lweKey.length lut lwe) mem regs hr sched h1 hdone bl
  obtain ⟨a1, a2⟩ := accAt_eq G N k b l lweKey.length hN hlen (convert G.toTransform N bsk) lut lwe z hlut lweKey.length
  generalize run p sched (start p mem regs) = fin at *
  have hacc : accumulators h.level fin z =
      (List.range lweKey.length).foldl (fun acc it => lowStep G N k b l (convert G.toTransform N bsk) it acc
        (exponent N (lwe z) it)) (listMonomialDiv N (lut z) (exponent N (lwe z) lweKey.length)) := by
    rw [accumulators]
    simp only [hfin]
    generalize (List.range lweKey.length).foldl (fun acc it => lowStep G N k b l (convert G.toTransform N bsk) it acc
        (exponent N (lwe z) it)) (listMonomialDiv N (lut z) (exponent N (lwe z) lweKey.length)) = C at *
    have : (List.finRange (k + 1)).map (fun y : Fin (k + 1) => Low.accAt (kernel G N k b l (convert G.toTransform N bsk) lwe) k l
        (firstAcc N lweKey.length lut lwe) lweKey.length 0 y z) = chunks N C := by
      rw [chunks_eq N hN (k + 1) _ a1, ← List.map_coe_finRange_eq_range, List.map_map]
      exact List.map_congr_left fun y _ => a2 _ y y.2
    rw [this, chunks_flatten N hN]
  rw [hacc]
  have hd : ∀ i, i ≤ lweKey.length →
      rescaleTorusElement ((lwe z).getD i 0) (2 * N) = some (exponent N (lwe z) i) := by
    intro i hi
    obtain ⟨d, e⟩ := hdeg i hi
    rw [exponent, e]; rfl
  obtain ⟨r, r1, r2, r3⟩ := bootstrap_spec _ N k hN (by omega) _ lweKey key (lut z) v (lwe z) lweOut hk hs
    (lowStep_selects G N k b l hN hw hb D B S E hG hD h hS0 lweKey key bsk hk hS hs hbsk) hlut hv hphase hin hout
    (exponent N (lwe z)) hd
  rw [rotateWith_eq _ N lweKey.length (lut z) (lwe z) hin _ hd, Option.bind_some] at r1
  exact ⟨r, r1, r2, r3⟩

theorem exponent_of {w N i d : Nat} {lwe : List (BitVec w)} (h : rescaleTorusElement (lwe.getD i 0) (2 * N) = some d) :
    exponent N lwe i = d := by rw [exponent, h, Option.getD_some]

/-- C81 for 32-bit words, proved part: `m` ciphertexts `lwe z`, with tables `lut z`, are bootstrapped by the blocks of the
low latency kernel. Every schedule that runs all blocks to their end, and in which no block writes a place of the join
buffers that another has still to read (always so with one level), leaves in the accumulators of each ciphertext a
bootstrap: if the plaintext of the table is `y` at every position that is within `(1 + weight) / 2` steps of the phase of
the input, the extracted ciphertext is one of `y` up to `n` times the CMUX error. Missing: the other schedules (C76). -/
theorem C81_lookup_32_partial (G : GpuTransform 32) (N k b l m logN : Nat) (hNN : N = 2 ^ logN) (hlog : logN + 2 < 32)
    (D B S E : Int) (hG : G.Accurate N (l * (k + 1)) D B)
    (hlen : ∀ p e, p.length = N → (G.addBack p e).length = N) (hD : 2 ^ (b - 1) ≤ D) (h : ValidParams 32 b l)
    (hS0 : 0 ≤ S) (lweKey key bsk v lweOut : List (BitVec 32)) (lut lwe : Nat → List (BitVec 32))
    (hk : KeyFits N k key) (hS : KeyBound S key) (hs : Lwe.BinaryKey lweKey) (hbsk : BskEnc N k b l lweKey key bsk E)
    (z : Fin m) (hlut : CtFits N k (lut z)) (hv : v.length = N) (hphase : glwePhase N k key (lut z) = toRq N v)
    (hin : Lwe.Fits lweKey (lwe z)) (hout : lweOut.length = k * N + 1)
    (mem : Low.Place → G.E) (regs : Low.Block k l m → Low.Regs G.E (List (BitVec 32)))
    (hr : ∀ bl, (regs bl).acc = firstAcc N lweKey.length lut lwe bl.1 bl.2.1 bl.2.2)
    (sched : List (Low.Block k l m)) (p : Low.Block k l m → Prog Low.Place G.E (Low.Regs G.E (List (BitVec 32))))
    (hp : p = Low.program (kernel G N k b l (convert G.toTransform N bsk) lwe) lweKey.length k l m)
    (hcalm : l ≤ 1 ∨ lweKey.length ≤ 1 ∨ Calm p sched (start p mem regs))
    (hdone : Done p (run p sched (start p mem regs))) (y : BitVec 32)
    (hy : ∀ d, d < 2 * N → |((d * 2 ^ (31 - logN) : Nat) - Lwe.phase lweKey (lwe z) : BitVec 32).toInt| ≤
        (1 + weight lweKey) * 2 ^ (30 - logN) → ext N v d = y) :
    ∃ r, sampleExtract N (accumulators h.level (run p sched (start p mem regs)) z) lweOut 0 = some r ∧
      Lwe.Fits key r ∧ |(Lwe.phase key r - y).toInt| ≤ lweKey.length * epBound 32 N k b l S E B 1 := by
  have hN : 0 < N := by rw [hNN]; positivity
  have hb : b ≤ 31 := by
    have := h.fits
    have h1 := h.level
    have : b * 1 ≤ b * l := Nat.mul_le_mul_left _ h1
    omega
  have hsw : ∀ i, rescaleTorusElement ((lwe z).getD i 0) (2 * N) = some (nearestDegree logN ((lwe z).getD i 0)) :=
    fun i => by rw [hNN]; exact (C78_switch_32 _ logN hlog).1
  have hex : ∀ i, exponent N (lwe z) i = nearestDegree logN ((lwe z).getD i 0) := fun i =>
    exponent_of (hsw i)
  obtain ⟨r, r1, r2, r3⟩ := low_core G N k b l m hN le_rfl hb D B S E hG hlen hD h hS0 lweKey key bsk v lweOut lut lwe hk
    hS hs hbsk z hlut hv hphase hin hout (fun i _ => ⟨_, hsw i⟩) mem regs hr sched p hp hcalm hdone
  obtain ⟨⟨d, d1, d2⟩, d3⟩ := C31_switched_phase logN hlog lweKey (lwe z)
  refine ⟨r, r1, r2, ?_⟩
  have h3 := d3 d d2
  rw [show 32 - logN - 1 = 31 - logN by omega, show 32 - logN - 2 = 30 - logN by omega] at h3
  rw [← hy d (by rw [hNN]; exact d1) h3]
  refine r3 d ?_
  simp only [hex]
  rw [hNN]
  exact d2

/-- C81 for 64-bit words, proved part: as `C81_lookup_32_partial`, with the distance `(1 + weight) (1/2 + N / 2^53)` steps
and bases of at most 31 bits. Missing: the other schedules (C76), the distance of the CPU (C78), larger bases (C79). -/
theorem C81_lookup_64_partial (G : GpuTransform 64) (N k b l m logN : Nat) (hNN : N = 2 ^ logN) (hlog : logN + 1 < 32)
    (hb : b ≤ 31) (D B S E : Int) (hG : G.Accurate N (l * (k + 1)) D B)
    (hlen : ∀ p e, p.length = N → (G.addBack p e).length = N) (hD : 2 ^ (b - 1) ≤ D) (h : ValidParams 64 b l)
    (hS0 : 0 ≤ S) (lweKey key bsk v lweOut : List (BitVec 64)) (lut lwe : Nat → List (BitVec 64))
    (hk : KeyFits N k key) (hS : KeyBound S key) (hs : Lwe.BinaryKey lweKey) (hbsk : BskEnc N k b l lweKey key bsk E)
    (z : Fin m) (hlut : CtFits N k (lut z)) (hv : v.length = N) (hphase : glwePhase N k key (lut z) = toRq N v)
    (hin : Lwe.Fits lweKey (lwe z)) (hout : lweOut.length = k * N + 1)
    (mem : Low.Place → G.E) (regs : Low.Block k l m → Low.Regs G.E (List (BitVec 64)))
    (hr : ∀ bl, (regs bl).acc = firstAcc N lweKey.length lut lwe bl.1 bl.2.1 bl.2.2)
    (sched : List (Low.Block k l m)) (p : Low.Block k l m → Prog Low.Place G.E (Low.Regs G.E (List (BitVec 64))))
    (hp : p = Low.program (kernel G N k b l (convert G.toTransform N bsk) lwe) lweKey.length k l m)
    (hcalm : l ≤ 1 ∨ lweKey.length ≤ 1 ∨ Calm p sched (start p mem regs))
    (hdone : Done p (run p sched (start p mem regs))) (y : BitVec 64)
    (hy : ∀ d, d < 2 * N → |((d * 2 ^ (63 - logN) : Nat) - Lwe.phase lweKey (lwe z) : BitVec 64).toInt| ≤
        (1 + weight lweKey) * (2 ^ (62 - logN) + 2 ^ 10) → ext N v d = y) :
    ∃ r, sampleExtract N (accumulators h.level (run p sched (start p mem regs)) z) lweOut 0 = some r ∧
      Lwe.Fits key r ∧ |(Lwe.phase key r - y).toInt| ≤ lweKey.length * epBound 64 N k b l S E B 1 := by
  have hN : 0 < N := by rw [hNN]; positivity
  have hsw : ∀ i, ∃ d : Nat, rescaleTorusElement ((lwe z).getD i 0) (2 * N) = some d ∧
      |((d * 2 ^ (63 - logN) : Nat) : Int) - ((lwe z).getD i 0).toNat| ≤ 2 ^ (62 - logN) + 2 ^ 10 :=
    fun i => by rw [hNN]; exact degree_64 _ logN hlog
  obtain ⟨r, r1, r2, r3⟩ := low_core G N k b l m hN (by omega) hb D B S E hG hlen hD h hS0 lweKey key bsk v lweOut lut lwe
    hk hS hs hbsk z hlut hv hphase hin hout (fun i _ => ⟨_, (hsw i).choose_spec.1⟩) mem regs hr sched p hp hcalm hdone
  obtain ⟨⟨d, d1, d2⟩, d3⟩ := phase_close logN (by omega) lweKey (lwe z) (exponent N (lwe z))
    (2 ^ (62 - logN) + 2 ^ 10) (fun i _ => by
      obtain ⟨d, e1, e2⟩ := hsw i
      rw [show 64 - logN - 1 = 63 - logN by omega, exponent, e1]; exact e2)
  refine ⟨r, r1, r2, ?_⟩
  have h3 := d3 d d2
  rw [show 64 - logN - 1 = 63 - logN by omega] at h3
  rw [← hy d (by rw [hNN]; exact d1) h3]
  refine r3 d ?_
  rw [hNN] at *
  exact d2

/-- The transform without error. -/
def exactGpu (w N : Nat) : GpuTransform w where
  E := List (BitVec w)
  zero := List.replicate N 0#w
  fwdGgsw := id
  fwdDigit := id
  mul d a := Poly.addMul (List.replicate N 0#w) a d
  add := Poly.add
  addBack := Poly.add

theorem exactGpu_accurate (N M : Nat) (hN : 0 < N) (D : Int) : (exactGpu w N).Accurate N M D 0 := by
  intro out ps e ho _ hp hs
  have main : e.length = N ∧ toRq N e = (ps.map fun x => toRq N x.1 * toRq N x.2).sum := by
    clear ho
    induction hs with
    | zero => exact ⟨by simp [exactGpu], (toRq_zero N N).trans (by simp)⟩
    | one a d =>
      obtain ⟨h1, h2, _⟩ := hp (a, d) (by simp)
      obtain ⟨a1, a2, _⟩ := addMul_spec N hN (List.replicate N 0#w) a d (by simp) h1 h2
      refine ⟨a1, a2.trans ?_⟩
      rw [show toRq N (List.replicate N 0#w) = 0 from toRq_zero N N]
      simp
    | add _ _ ih1 ih2 =>
      obtain ⟨a1, a2⟩ := ih1 (by simp only [List.length_append] at *; omega)
        fun x hx => hp x (List.mem_append_left _ hx)
      obtain ⟨b1, b2⟩ := ih2 (by simp only [List.length_append] at *; omega)
        fun x hx => hp x (List.mem_append_right _ hx)
      refine ⟨(zipUpdate_length _ _ _).trans a1, (toRq_add N _ _ (a1.trans b1.symm)).trans ?_⟩
      rw [a2, b2, List.map_append, List.sum_append]
  refine ⟨(zipUpdate_length _ _ _).trans ho, 0, small_zero N 0 le_rfl, ?_⟩
  rw [add_zero, ← main.2]
  exact toRq_add N _ _ (ho.trans main.1.symm)

/-- A schedule for two levels and two polynomials in which the blocks move together. -/
def together : List (Low.Block 1 2 1) :=
  (List.replicate 40 [(0, 0, 0), (0, 1, 0), (1, 0, 0), (1, 1, 0)]).flatten

-- the hypotheses can be met: two levels, two mask elements, dimension 1
example : let bsk := (([1, 1] : List (BitVec 32)).map (gadgetGgsw 4 1 3 2)).flatten
    BskEnc 4 1 3 2 [1, 1] [1, 0, 1, 1] bsk 0 ∧
    let G := exactGpu 32 4
    let lwe : Nat → List (BitVec 32) := fun _ => [0x20000000#32, 0x60000000#32, 0xA0000000#32]
    let lut : Nat → List (BitVec 32) := fun _ => [0, 0, 0, 0, 0x0C000000, 0x0C000000, 0x0C000000, 0x0C000000]
    let p := Low.program (kernel G 4 1 3 2 (convert G.toTransform 4 bsk) lwe) 2 1 2 1
    let s0 := start p (fun _ => ([] : List (BitVec 32))) fun bl : Low.Block 1 2 1 =>
      ⟨firstAcc 4 2 lut lwe bl.1 bl.2.1 bl.2.2, [], []⟩
    G.Accurate 4 4 (2 ^ 2) 0 ∧ Calm p together s0 ∧ Done p (run p together s0) ∧
    (∀ d, d < 2 * 4 → |((d * 2 ^ (31 - 2) : Nat) - Lwe.phase [1, 1] (lwe 0) : BitVec 32).toInt| ≤
        (1 + weight [1#32, 1]) * 2 ^ (30 - 2) →
      ext 4 [0x0C000000, 0x0C000000, 0x0C000000, 0x0C000000] d = 0x0C000000#32) := by
  refine ⟨gadget_bsk 4 1 3 2 (by decide) (by decide) [1#32, 1] [1, 0, 1, 1], exactGpu_accurate 4 4 (by decide) (2 ^ 2), ?_, ?_, ?_⟩
  · decide +kernel
  · unfold Done DoneAt; decide +kernel
  · decide +kernel

end Verif.Cuda.Am
