import Verif.Ntt.Props
/-
The NTT as a transform for the external product: products are computed with an error bounded by the two
modulus switches, and the bootstrap of the NTT backend is correct without hypothesis on the transform.
-/
set_option linter.unusedSectionVars false
namespace Verif.Ntt
open Verif.Poly Verif.BV Verif.Pbs Verif.Glwe Verif.Decomp

variable {W w : Nat}

/-- Error of a sum of `M` products of size `N` with digits bounded by `D`, computed modulo `q`: the switch
of the GGSW coefficients to modulus `q`, and the switch back. -/
def nttError (w Q N M : Nat) (D : Int) : Int := (2 ^ w * (M * (N * D)) + Q) / (2 * Q)

theorem convSum_abs (N : Nat) (ps : List (List Int × List Int)) (A B : Int) (hA : 0 ≤ A) (hB : 0 ≤ B)
    (h : ∀ x ∈ ps, (∀ c ∈ x.1, |c| ≤ A) ∧ ∀ c ∈ x.2, |c| ≤ B) (k : Nat) (hk : k < N) :
    |convSum N ps k| ≤ ps.length * (N * (A * B)) := by
  induction ps with
  | nil => simp [convSum]
  | cons x ps ih =>
    obtain ⟨h1, h2⟩ := h x (List.mem_cons_self ..)
    have e : convSum N (x :: ps) k = negaConv N x.1 x.2 k + convSum N ps k := by simp [convSum]
    rw [e, List.length_cons]
    refine (abs_add_le _ _).trans ?_
    have := negaConv_abs N x.1 x.2 A B hA hB h1 h2 k hk
    have := ih fun y hy => h y (List.mem_cons_of_mem _ hy)
    push_cast
    rw [add_mul, one_mul]
    omega

theorem negaConv_lin (N : Nat) (p p' d e : List Int) (a b : Int) (he : ∀ i, e.getD i 0 = a * p.getD i 0 - b * p'.getD i 0)
    (k : Nat) : negaConv N e d k = a * negaConv N p d k - b * negaConv N p' d k := by
  simp only [negaConv, Finset.mul_sum, ← Finset.sum_sub_distrib]
  refine Finset.sum_congr rfl fun i _ => Finset.sum_congr rfl fun j _ => ?_
  rw [he]
  split
  · ring
  · split <;> ring

theorem convSum_lin {β : Type} (N : Nat) (ps : List β) (f g d e : β → List Int) (a b : Int)
    (he : ∀ x i, (e x).getD i 0 = a * (f x).getD i 0 - b * (g x).getD i 0) (k : Nat) :
    convSum N (ps.map fun x => (e x, d x)) k =
      a * convSum N (ps.map fun x => (f x, d x)) k - b * convSum N (ps.map fun x => (g x, d x)) k := by
  simp only [convSum, List.map_map]
  induction ps with
  | nil => simp
  | cons y t ih =>
    simp only [List.map_cons, List.sum_cons, Function.comp] at ih ⊢
    rw [ih, negaConv_lin N (f y) (g y) (d y) (e y) a b (he y)]
    ring

/-- The NTT is an accurate transform. -/
theorem ntt_accurate (q : BitVec W) (hq : Suits w q) (T : Tables (ModQ W)) (hT : T.Reduced q) (hv : Valid (T.toZ q))
    (M : Nat) (D : Int) (hD0 : 0 ≤ D) (hD : D * (2 ^ w - q.toNat) < 2 ^ (w - 1)) :
    (nttTransform w q T).Accurate (2 ^ T.logSize) M D (nttError w q.toNat (2 ^ T.logSize) M D) := by
  intro out ps ho hM hps
  set N := 2 ^ T.logSize with hN
  have hN0 : 0 < N := by rw [hN]; positivity
  have hroom := hq.toRoom
  have hqpos := hq.pos
  have hc0 : (0 : Int) ≤ 2 ^ w - q.toNat := by
    have : ((q.toNat : Nat) : Int) < 2 ^ w := by exact_mod_cast hq.lt
    omega
  -- integer images of the polynomials
  let G : List (BitVec w) → List Int := fun p => p.map fun g => ((roundInto w q.toNat g.toNat : Nat) : Int)
  let zs : List (List Int × List Int) := ps.map fun x => (G x.1, x.2.map BitVec.toInt)
  let cs : List (List (ZMod q.toNat) × List (ZMod q.toNat)) :=
    zs.map fun x => (x.1.map fun c : Int => (c : ZMod q.toNat), x.2.map fun c : Int => (c : ZMod q.toNat))
  have hcs : ∀ x ∈ cs, x.1.length = N ∧ x.2.length = N := by
    intro x hx
    obtain ⟨y, hy, rfl⟩ := List.mem_map.1 hx
    obtain ⟨u, hu, rfl⟩ := List.mem_map.1 hy
    obtain ⟨a, b, _⟩ := hps u hu
    exact ⟨by simpa [G] using a, by simpa using b⟩
  have intoG : ∀ p : List (BitVec w), RelL q (p.map fun x => (ModQ.new 0 q).modSwitchInto x)
      ((G p).map fun c : Int => (c : ZMod q.toNat)) := by
    intro p
    induction p with
    | nil => exact .nil
    | cons g p ih => exact .cons (into_rel hq _ rfl g) ih
  have intoD : ∀ p : List (BitVec w), (∀ c ∈ p, |c.toInt| ≤ D) →
      RelL q (p.map fun x => (ModQ.new 0 q).modSwitchInto x)
      ((p.map BitVec.toInt).map fun c : Int => (c : ZMod q.toNat)) := by
    intro p hp
    induction p with
    | nil => exact .nil
    | cons g p ih =>
      refine .cons ?_ (ih fun c hc => hp c (List.mem_cons_of_mem _ hc))
      beta_reduce
      rw [← roundInto_small hq.wpos hq.lt g
        ((mul_le_mul_of_nonneg_right (hp g (List.mem_cons_self ..)) hc0).trans_lt hD)]
      exact into_rel hq _ rfl g
  -- the accumulated transform
  have hs : ((List.range N).map (convSum N cs)).length = N := by simp
  have hf := forward_sum hv cs hcs _ hs (toRq_convSum N hN0 cs hcs)
  have hrel : RelL q (ps.foldl (fun acc x => mulAcc (modqOps q) acc (forwardModSwitch q T x.1) (forwardModSwitch q T x.2))
      (List.replicate N (ModQ.new 0 q)))
      (cs.foldl (fun acc x => mulAcc (ringOps _) acc (forward (ringOps _) (T.toZ q) x.1)
        (forward (ringOps _) (T.toZ q) x.2)) (List.replicate N 0)) := by
    have main : ∀ (ps : List (List (BitVec w) × List (BitVec w))) (l : List (ModQ W)) (x : List (ZMod q.toNat)),
        (∀ x ∈ ps, x.1.length = N ∧ x.2.length = N ∧ ∀ c ∈ x.2, |c.toInt| ≤ D) →
        RelL q l x → RelL q (ps.foldl (fun acc x => mulAcc (modqOps q) acc
          (forwardModSwitch q T x.1) (forwardModSwitch q T x.2)) l)
          (ps.foldl (fun acc y => mulAcc (ringOps _) acc
            (forward (ringOps _) (T.toZ q) ((G y.1).map fun c : Int => (c : ZMod q.toNat)))
            (forward (ringOps _) (T.toZ q) ((y.2.map BitVec.toInt).map fun c : Int => (c : ZMod q.toNat)))) x) := by
      intro ps
      induction ps with
      | nil => intro l x _ h; exact h
      | cons y ps ih =>
        intro l x hx h
        obtain ⟨_, _, y2⟩ := hx y (List.mem_cons_self ..)
        exact ih _ _ (fun z hz => hx z (List.mem_cons_of_mem _ hz))
          (mulAcc_rel hroom h (forward_rel hroom hT (intoG y.1)) (forward_rel hroom hT (intoD y.2 y2)))
    have := main ps _ _ hps (replicate_rel hroom N)
    simp only [cs, zs, List.foldl_map]
    exact this
  have hb := backward_rel hroom hT hrel
  rw [show List.replicate N (0 : ZMod q.toNat) = List.replicate (2 ^ (T.toZ q).logSize) 0 from rfl, hf,
    backward_forward hv _ hs] at hb
  set acc := ps.foldl (fun acc x => mulAcc (modqOps q) acc (forwardModSwitch q T x.1) (forwardModSwitch q T x.2))
      (List.replicate N (ModQ.new 0 q)) with hacc
  -- the switch back
  have hbl : (backward (modqOps q) T acc).length = N := by rw [hb.length_eq, hs]
  have hout : (nttTransform w q T).addBack out acc =
      Poly.add out ((backward (modqOps q) T acc).map fun c => c.modSwitchFrom w) := by
    show addBackwardModSwitch q T out acc = _
    have hl : (backwardBuf (modqOps q) T.rootsInv T.logSize acc).length = N := by
      have := hbl
      rw [backward, List.length_map] at this
      exact this
    have hl2 : ((backward (modqOps q) T acc).map fun c => c.modSwitchFrom w).length = N := by
      rw [List.length_map, hbl]
    rw [addBackwardModSwitch, Poly.add, zipUpdate_eq_zipWith _ _ _ (by rw [ho, hl]), zipUpdate_eq_zipWith _ _ _ (by rw [ho, hl2]),
      backward, List.map_map, List.zipWith_map_right]
    rfl
  have hF : ∀ k, k < N → ∃ F : Int, ((backward (modqOps q) T acc).map fun c => c.modSwitchFrom w).getD k 0 = (F : BitVec w) ∧
      |2 * ((q.toNat : Int) * F - convSum N zs k * 2 ^ w)| ≤ q.toNat := by
    intro k hk
    have h1 := hb.getD hroom k
    have h2 : ((List.range N).map (convSum N cs)).getD k 0 = ((convSum N zs k : Int) : ZMod q.toNat) := by
      rw [List.getD_eq_getElem?_getD, List.getElem?_map, List.getElem?_range hk]
      exact convSum_cast N zs k
    rw [show ((List.range N).map (convSum N cs)).getD k (ringOps (ZMod q.toNat)).zero = _ from h2] at h1
    obtain ⟨F, f1, f2⟩ := from_near hq _ _ h1
    refine ⟨F, ?_, f2⟩
    rw [← f1]
    have hk' : k < (backward (modqOps q) T acc).length := by omega
    simp [List.getD_eq_getElem?_getD, List.getElem?_eq_getElem hk']
  -- the exact value
  let xs : List (List Int × List Int) := ps.map fun x => (x.1.map fun g => (g.toNat : Int), x.2.map BitVec.toInt)
  let es : List (List Int × List Int) := ps.map fun x =>
    (x.1.map fun g => ((2 ^ w : Int) * (roundInto w q.toNat g.toNat : Nat) - (q.toNat : Int) * (g.toNat : Int)), x.2.map BitVec.toInt)
  have hlin : ∀ k, convSum N es k = 2 ^ w * convSum N zs k - (q.toNat : Int) * convSum N xs k := by
    intro k
    refine convSum_lin N ps _ _ _ _ _ _ (fun x i => ?_) k
    simp only [G, List.getD_eq_getElem?_getD, List.getElem?_map]
    cases x.1[i]? <;> simp
  have hes : ∀ k, k < N → |2 * convSum N es k| ≤ 2 ^ w * (M * (N * D)) := by
    intro k hk
    -- twice the errors, so that all quantities are integers
    have h2 : 2 * convSum N es k = convSum N (ps.map fun x =>
        (x.1.map fun g => 2 * ((2 ^ w : Int) * (roundInto w q.toNat g.toNat : Nat) - (q.toNat : Int) * (g.toNat : Int)),
          x.2.map BitVec.toInt)) k := by
      have := convSum_lin N ps (fun x => x.1.map fun g => (2 ^ w : Int) * (roundInto w q.toNat g.toNat : Nat) - (q.toNat : Int) * (g.toNat : Int))
        (fun x => x.1.map fun _ => (0 : Int)) (fun x => x.2.map BitVec.toInt)
        (fun x => x.1.map fun g => 2 * ((2 ^ w : Int) * (roundInto w q.toNat g.toNat : Nat) - (q.toNat : Int) * (g.toNat : Int)))
        2 0 (fun x i => by
          simp only [List.getD_eq_getElem?_getD, List.getElem?_map]
          cases x.1[i]? <;> simp) k
      rw [this, zero_mul, sub_zero]
    rw [h2]
    refine (convSum_abs N _ (2 ^ w) D (by positivity) hD0 ?_ k hk).trans ?_
    · intro x hx
      obtain ⟨y, hy, rfl⟩ := List.mem_map.1 hx
      refine ⟨fun c hc => ?_, fun c hc => ?_⟩
      · obtain ⟨g, _, rfl⟩ := List.mem_map.1 hc
        have := roundInto_near hq.wpos q.toNat g.toNat
        rwa [mul_comm ((2 : Int) ^ w), mul_comm (q.toNat : Int)]
      · obtain ⟨g, hg, rfl⟩ := List.mem_map.1 hc
        exact (hps y hy).2.2 g hg
    · rw [List.length_map]
      have : ((ps.length : Nat) : Int) ≤ M := by exact_mod_cast hM
      have h3 : (0 : Int) ≤ N * (2 ^ w * D) := by positivity
      calc (ps.length : Int) * (N * (2 ^ w * D)) ≤ M * (N * (2 ^ w * D)) := mul_le_mul_of_nonneg_right this h3
        _ = _ := by ring
  have hF' : ∀ k, ∃ F : Int, k < N → ((backward (modqOps q) T acc).map fun c => c.modSwitchFrom w).getD k 0 = (F : BitVec w) ∧
      |2 * ((q.toNat : Int) * F - convSum N zs k * 2 ^ w)| ≤ q.toNat := by
    intro k
    by_cases hk : k < N
    · obtain ⟨F, h⟩ := hF k hk
      exact ⟨F, fun _ => h⟩
    · exact ⟨0, fun h => absurd h hk⟩
  choose F hF'' using hF'
  have hfold : ps.foldl (fun acc x => (nttTransform w q T).mulAcc acc ((nttTransform w q T).fwdGgsw x.1)
      ((nttTransform w q T).fwdDigit x.2)) (nttTransform w q T).zero = acc := rfl
  rw [hfold, hout]
  have hbl2 : ((backward (modqOps q) T acc).map fun c => c.modSwitchFrom w).length = N := by rw [List.length_map, hbl]
  refine ⟨by rw [Poly.add, zipUpdate_length, ho], toRq N ((List.range N).map fun k =>
    ((F k - convSum N xs k : Int) : BitVec w)), ?_, ?_⟩
  · refine ⟨(List.range N).map fun k => F k - convSum N xs k, by simp, fun c hc => ?_, ?_⟩
    · obtain ⟨k, hk, rfl⟩ := List.mem_map.1 hc
      have hk : k < N := List.mem_range.1 hk
      rw [nttError, Int.le_ediv_iff_mul_le (by omega), mul_comm]
      have e : 2 * (q.toNat : Int) * (F k - convSum N xs k) =
          2 * ((q.toNat : Int) * F k - convSum N zs k * 2 ^ w) + 2 * convSum N es k := by
        rw [hlin]; ring
      have h0 : (0 : Int) ≤ 2 * q.toNat := by omega
      rw [← abs_of_nonneg h0, ← abs_mul, e]
      have := (hF'' k hk).2
      have := hes k hk
      exact (abs_add_le _ _).trans (by omega)
    · rw [List.map_map]; rfl
  · have hxs : (xs.map fun x => (x.1.map fun c : Int => (c : BitVec w), x.2.map fun c : Int => (c : BitVec w))) = ps := by
      simp only [xs, List.map_map]
      conv_rhs => rw [← List.map_id ps]
      apply List.map_congr_left
      intro x _
      simp only [Function.comp, List.map_map, id]
      have e1 : x.1.map ((fun c : Int => (c : BitVec w)) ∘ fun g => (g.toNat : Int)) = x.1 := by
        conv_rhs => rw [← List.map_id x.1]
        apply List.map_congr_left
        intro g _
        simp
      have e2 : x.2.map ((fun c : Int => (c : BitVec w)) ∘ BitVec.toInt) = x.2 := by
        conv_rhs => rw [← List.map_id x.2]
        apply List.map_congr_left
        intro g _
        exact intCast_toInt g
      rw [e1, e2]
    have hprod := toRq_convSum N hN0 ps (fun x hx => ⟨(hps x hx).1, (hps x hx).2.1⟩)
    rw [toRq_add N _ _ (by rw [List.length_map, ho, hbl]), ← hprod, add_assoc]
    congr 1
    rw [← toRq_add N _ _ (by simp)]
    congr 1
    apply list_ext_getD
    · rw [hbl2, Poly.add, zipUpdate_length]; simp
    · intro k hk
      rw [hbl2] at hk
      rw [(hF'' k hk).1, Poly.add, zipUpdate_getD _ _ _ k 0 0 (by simpa using hk) (by simpa using hk)]
      have hc : convSum N ps k = ((convSum N xs k : Int) : BitVec w) := by
        rw [← convSum_cast (R := BitVec w) N xs k, hxs]
      simp only [List.getD_eq_getElem?_getD, List.getElem?_map, List.getElem?_range hk, Option.map_some,
        Option.getD_some, hc]
      push_cast
      ring

/-- C27 and C31 for the NTT backend, without hypothesis on the transform: with valid tables and digits that the
modulus lifts exactly, the CMUX tree of the blind rotation and the extraction return a ciphertext whose phase is the
table value at the switched phase, up to the bounds. -/
theorem C31_ntt (q : BitVec W) (hq : Suits w q) (T : Tables (ModQ W)) (hT : T.Reduced q) (hval : Valid (T.toZ q))
    (k b l : Nat) (hlog : T.logSize + 2 < w) (S E : Int)
    (hdig : 2 ^ (b - 1) * (2 ^ w - (q.toNat : Int)) < 2 ^ (w - 1)) (h : ValidParams w b l)
    (hS0 : 0 ≤ S) (hE : 0 ≤ E) (lweKey key bsk acc v lweIn lweOut : List (BitVec w))
    (hk : KeyFits (2 ^ T.logSize) k key) (hS : KeyBound S key) (hs : Lwe.BinaryKey lweKey)
    (hbsk : BskEnc (2 ^ T.logSize) k b l lweKey key bsk E)
    (hacc : CtFits (2 ^ T.logSize) k acc) (hv : v.length = 2 ^ T.logSize)
    (hphase : glwePhase (2 ^ T.logSize) k key acc = toRq (2 ^ T.logSize) v)
    (hin : Lwe.Fits lweKey lweIn) (hout : lweOut.length = k * 2 ^ T.logSize + 1) :
    ∃ r, bootstrap (cmuxNtt (nttTransform w q T) (2 ^ T.logSize) k b l) (2 ^ T.logSize) T.logSize lweOut lweIn acc
        (bskGgsws (nttTransform w q T) (2 ^ T.logSize) k l bsk) = some r ∧
      Lwe.Fits key r ∧
      ∀ d, IsSwitchedPhase T.logSize lweKey lweIn d →
        |(Lwe.phase key r - ext (2 ^ T.logSize) v d).toInt| ≤
          lweKey.length * epBound w (2 ^ T.logSize) k b l S E
            (nttError w q.toNat (2 ^ T.logSize) (l * (k + 1)) (2 ^ (b - 1))) 1 := by
  have hB : 0 ≤ nttError w q.toNat (2 ^ T.logSize) (l * (k + 1)) (2 ^ (b - 1)) := by
    rw [nttError]; exact Int.ediv_nonneg (by positivity) (by positivity)
  obtain ⟨r, _, h1, h2, h3⟩ := C31_bootstrap (nttTransform w q T) (2 ^ T.logSize) k b l T.logSize rfl hlog _ _ S E
    (ntt_accurate q hq T hT hval (l * (k + 1)) (2 ^ (b - 1)) (by positivity) hdig) le_rfl h hB hS0 hE lweKey key bsk acc v
    lweIn lweOut hk hS hs hbsk hacc hv hphase hin hout
  exact ⟨r, h1, h2, h3⟩

end Verif.Ntt
