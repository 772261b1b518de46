import Verif.Cuda.VpTree
import Verif.Wop.Examples
/-
C85: the vertical packing of CUDA.
-/
namespace Verif.Cuda.Vp
open Verif.Pbs Verif.Poly Verif.Glwe Verif.Decomp Verif.Wop

variable {w : Nat}

/-- C85: the CMUX of the GPU is the CMUX of the CPU (C28) on inputs whose difference is lowered by half of the last
place of the decomposition: it truncates where the CPU rounds. -/
theorem C85_cmux_partial (T : Transform w) (N k b l n i : Nat) (hN : 0 < N) (hw : 32 ≤ w) (hv : ValidParams w b l)
    (hb : b ≤ 31) (ggsws m0 m1 : List (BitVec w)) (hg : ggsws.length = n * (l * ((k + 1) * ((k + 1) * N)))) (hi : i < n)
    (h0 : CtFits N k m0) (h1 : CtFits N k m1) :
    cmux T N k b l (convert T N ggsws) i m0 m1 = externalProduct T N k b l m0
      (convert T N (block (l * ((k + 1) * ((k + 1) * N))) ggsws i))
      ((List.zipWith (fun x y => x - y) m1 m0).map fun x => x - 1#w <<< (w - b * l - 1)) := by
  rw [cmux_eq T N k b l n i hN hw hv hb ggsws m0 m1 hg hi h0 h1]
  show externalProduct _ _ _ _ _ _ _ ((zipUpdate _ _ _).map _) = _
  rw [zipUpdate_eq_zipWith _ _ _ (by rw [show m0.length = _ from h0, show m1.length = _ from h1])]
  rfl

/-- The CMUXes of the tree and of the rotation. -/
theorem cm_ok (T : Transform w) (N k b l n : Nat) (hN : 0 < N) (hw : 32 ≤ w) (hv : ValidParams w b l) (hb : b ≤ 31)
    (D B S E : Int) (hT : T.Accurate N (l * (k + 1)) D B) (hD : 2 ^ (b - 1) ≤ D) (hS0 : 0 ≤ S)
    (key : List (BitVec w)) (hk : KeyFits N k key) (hS : KeyBound S key) (flat : List (BitVec w))
    (ggsws : List (List (BitVec w))) (bits : List Bool) (hf : flat.length = n * (l * ((k + 1) * ((k + 1) * N))))
    (hg : BitsEnc N k b l key ggsws bits E) (off : Nat) (hoff : off + n ≤ bits.length)
    (hblk : ∀ i, i < n → block (l * ((k + 1) * ((k + 1) * N))) flat i = ggsws.getD (off + i) [])
    (i : Nat) (hi : i < n) (c0 c1 : List (BitVec w)) (h0 : CtFits N k c0) (h1 : CtFits N k c1) :
    cmux T N k b l (convert T N flat) i c0 c1 =
      (Pbs.cmux (epTrunc T N k b l (convert T N (ggsws.getD (off + i) []))) c0 c1).1 ∧
    CtFits N k (cmux T N k b l (convert T N flat) i c0 c1) ∧
      ∃ e : Rq (BitVec w) N, Small N (epBound w N k b l S E B 2) e ∧
        glwePhase N k key (cmux T N k b l (convert T N flat) i c0 c1) =
          (if bits.getD (off + i) false then glwePhase N k key c1 else glwePhase N k key c0) + e := by
  have he := cmux_eq T N k b l n i hN hw hv hb flat c0 c1 hf hi h0 h1
  rw [hblk i hi] at he
  refine ⟨he, ?_⟩
  have hib : off + i < bits.length := by omega
  have hig : off + i < ggsws.length := by rw [hg.1]; exact hib
  have := epTrunc_ok T N k b l hN D B S E hT hD hv hS0 key hk hS ggsws bits hg (off + i)
    (convert T N (ggsws.getD (off + i) [])) (bits.getD (off + i) false) (by
      rw [List.getElem?_map, List.getD_eq_getElem?_getD, List.getElem?_eq_getElem hig]; rfl) (by
      rw [List.getD_eq_getElem?_getD, List.getElem?_eq_getElem hib]; rfl) c0 c1 h0 h1
  rw [he]
  exact this

/-- The tree. -/
theorem cmuxTree_spec (T : Transform w) (N k b l r tau : Nat) (hN : 0 < N) (hw : 32 ≤ w) (hv : ValidParams w b l)
    (hb : b ≤ 31) (D B S E : Int) (hT : T.Accurate N (l * (k + 1)) D B) (hD : 2 ^ (b - 1) ≤ D) (hS0 : 0 ≤ S)
    (key : List (BitVec w)) (hk : KeyFits N k key) (hS : KeyBound S key) (ggsws : List (BitVec w)) (bits : List Bool)
    (hgl : ggsws.length = bits.length * (l * ((k + 1) * ((k + 1) * N))))
    (hg : BitsEnc N k b l key ((List.range bits.length).map (block (l * ((k + 1) * ((k + 1) * N))) ggsws)) bits E)
    (hr : r ≤ bits.length) (lut : List (BitVec w)) (hlut : lut.length = tau * (2 ^ r * N))
    (mem : Nat → List (BitVec w)) :
    (cmuxTree T N k b l r tau ggsws lut mem).length = tau ∧ ∀ t, t < tau →
      CtFits N k ((cmuxTree T N k b l r tau ggsws lut mem).getD t []) ∧ ∃ e : Rq (BitVec w) N,
      Small N (r * epBound w N k b l S E B 2) e ∧
      glwePhase N k key ((cmuxTree T N k b l r tau ggsws lut mem).getD t []) =
        toRq N (block N lut (t * 2 ^ r + indexOf (bits.take r).reverse)) + e := by
  have hpad : ∀ i, i < 2 ^ r * tau → CtFits N k (padded N k lut i) ∧
      glwePhase N k key (padded N k lut i) = toRq N (block N lut i) := by
    intro i hi
    exact C31_trivial_accumulator N k hN key (block N lut i)
      (block_len N (2 ^ r * tau) i lut (by rw [hlut]; ring) hi)
  by_cases h0 : r = 0
  · subst h0
    refine ⟨by rw [cmuxTree, if_pos rfl]; simp, fun t ht => ?_⟩
    rw [cmuxTree, if_pos rfl, Am.getD_map_range _ _ _ _ ht]
    obtain ⟨a1, a2⟩ := hpad t (by simpa using ht)
    refine ⟨a1, 0, small_zero N _ (by simp), ?_⟩
    rw [a2]; simp [indexOf]
  · refine ⟨by rw [cmuxTree, if_neg h0]; simp, fun t ht => ?_⟩
    rw [cmuxTree, if_neg h0]
    simp only
    rw [Am.getD_map_range _ _ _ _ ht]
    have hsp := layers_spec
      (cmux T N k b l (convert T N (ggsws.take (r * (l * ((k + 1) * ((k + 1) * N))))))) N k r tau key
      (epBound w N k b l S E B 2) bits hr
      (fun i hi c0 c1 f0 f1 => by
        have := (cm_ok T N k b l r hN hw hv hb D B S E hT hD hS0 key hk hS _ _ bits (by
          rw [List.length_take, hgl]; exact Nat.min_eq_left (Nat.mul_le_mul_right _ hr)) hg 0 (by omega)
          (fun i hi => by
            rw [block_take _ _ _ _ hi, Nat.zero_add, Am.getD_map_range _ _ _ _ (by omega)]) i hi c0 c1 f0 f1).2
        rwa [Nat.zero_add] at this)
      (fun i => if i < 2 ^ r * tau then padded N k lut i else mem i, mem) (fun i => toRq N (block N lut i))
      (fun i hi => by simp only [if_pos hi]; exact hpad i hi) r le_rfl t ht 0 (by simp)
    simp only [Nat.add_zero, Nat.zero_mul, Nat.zero_add] at hsp
    have hcur : ∀ s : (Nat → List (BitVec w)) × (Nat → List (BitVec w)),
        (if (r - 1) % 2 = 1 then s.1 else s.2) = cur r s := by
      intro s
      rw [cur]
      by_cases h : r % 2 = 0
      · rw [if_pos h, if_pos (by omega)]
      · rw [if_neg h, if_neg (by omega)]
    rw [hcur]
    exact hsp

theorem mapM_id_some {α : Type} : ∀ (l : List (Option α)) (r : List α), l = r.map some → l.mapM id = some r := by
  rintro l r rfl
  induction r with
  | nil => rfl
  | cons a r ih => simp [ih]

/-- C85: on encryptions of at least `log2 N` bits (`m = log2 N`), with `r` more bits and `tau` tables of `2^r N`
entries, output `t` of the vertical packing of the GPU is an encryption of an entry of table `t`. The last `m` bits
spell the low part of its index, the first one of them being the most significant, as on the CPU. The first `r` bits
spell the high part, but with the *first* bit the *least* significant. The error is that of one CMUX per bit, whose
rounding term counts twice (`epBound` with 2). -/
theorem C85_vertical_packing_partial (T : Transform w) (N m k b l r tau : Nat) (hN : N = 2 ^ m) (hw : 32 ≤ w)
    (hv : ValidParams w b l) (hb : b ≤ 31) (D B S E : Int) (hT : T.Accurate N (l * (k + 1)) D B) (hD : 2 ^ (b - 1) ≤ D)
    (hS0 : 0 ≤ S) (key : List (BitVec w)) (hk : KeyFits N k key) (hS : KeyBound S key) (ggsws : List (BitVec w))
    (bits : List Bool) (hbits : bits.length = r + m) (hr : r < 31) (hm : m < 32)
    (hgl : ggsws.length = bits.length * (l * ((k + 1) * ((k + 1) * N))))
    (hg : BitsEnc N k b l key ((List.range bits.length).map (block (l * ((k + 1) * ((k + 1) * N))) ggsws)) bits E)
    (lut : List (BitVec w)) (hlut : lut.length = tau * (2 ^ r * N)) (mem : Nat → List (BitVec w))
    (lweOuts : List (List (BitVec w))) (ho : lweOuts.length = tau) (hol : ∀ o ∈ lweOuts, o.length = k * N + 1) :
    ∃ outs, verticalPacking T N k b l m bits.length tau ggsws lut mem lweOuts = some outs ∧ outs.length = tau ∧
      ∀ t, t < tau → Lwe.Fits key (outs.getD t []) ∧
        |(Lwe.phase key (outs.getD t []) -
          (block (2 ^ r * N) lut t).getD (indexOf ((bits.take r).reverse ++ bits.drop r)) 0).toInt| ≤
            bits.length * epBound w N k b l S E B 2 := by
  have hN0 : 0 < N := by rw [hN]; positivity
  have hlc : layerCount bits.length m = r := by
    rw [layerCount, hbits, show r + m + 2 ^ 32 - m = r + 2 ^ 32 by omega, Nat.add_mod_right,
      Nat.mod_eq_of_lt (by omega)]
  obtain ⟨t1, t2⟩ := cmuxTree_spec T N k b l r tau hN0 hw hv hb D B S E hT hD hS0 key hk hS ggsws bits hgl hg (by omega)
    lut hlut mem
  generalize hct : cmuxTree T N k b l r tau ggsws lut mem = cts at t1 t2
  set size := l * ((k + 1) * ((k + 1) * N)) with hsize
  set gl := (List.range bits.length).map (block size ggsws) with hgll
  set flat := (ggsws.drop (r * size)).take (m * size) with hflat
  have hfl : flat.length = m * size := by
    rw [hflat, List.length_take, List.length_drop, hgl, hbits, Nat.add_mul, Nat.add_sub_cancel_left, Nat.min_self]
  have hcm := cm_ok T N k b l m hN0 hw hv hb D B S E hT hD hS0 key hk hS flat gl bits hfl hg r (by omega)
    (fun i hi => by
      rw [hflat, block_take _ _ _ _ hi, block_drop, hgll, Am.getD_map_range _ _ _ _ (by omega)])
  have hgl' : gl.length = bits.length := by rw [hgll]; simp
  have hok := epTrunc_ok T N k b l hN0 D B S E hT hD hv hS0 key hk hS gl bits hg
  have hdl : (bits.drop r).length = m := by rw [List.length_drop]; omega
  have htl : (bits.take r).reverse.length = r := by rw [List.length_reverse, List.length_take]; omega
  have hhi : indexOf (bits.take r).reverse < 2 ^ r := by
    calc _ < 2 ^ (bits.take r).reverse.length := indexOf_lt _
      _ = 2 ^ r := by rw [htl]
  have hlo : indexOf (bits.drop r) < N := by
    calc _ < 2 ^ (bits.drop r).length := indexOf_lt _
      _ = N := by rw [hdl, hN]
  have hone : ∀ t, t < tau → ∃ out, rotateExtract T N k b l m (convert T N flat) (cts.getD t []) (lweOuts.getD t []) =
      some out ∧ Lwe.Fits key out ∧ |(Lwe.phase key out -
          (block (2 ^ r * N) lut t).getD (indexOf ((bits.take r).reverse ++ bits.drop r)) 0).toInt| ≤
            bits.length * epBound w N k b l S E B 2 := by
    intro t ht
    obtain ⟨c1, e, c2, c3⟩ := t2 t ht
    have hol' : (lweOuts.getD t []).length = k * N + 1 := by
      rw [List.getD_eq_getElem?_getD, List.getElem?_eq_getElem (by omega)]
      exact hol _ (List.getElem_mem _)
    have hbl : t * 2 ^ r + indexOf (bits.take r).reverse < tau * 2 ^ r := by
      have : (t + 1) * 2 ^ r ≤ tau * 2 ^ r := Nat.mul_le_mul_right _ ht
      rw [Nat.add_mul, Nat.one_mul] at this
      omega
    obtain ⟨out, o1, o2, o3⟩ := pack_spec (epTrunc T N k b l) hN0 key hk _ _ bits (by rw [List.length_map, hgl']) hok r
      (by omega) (by omega) _ c1 _ (block_len N (tau * 2 ^ r) _ lut (by rw [hlut]; ring) hbl) e c2 c3 _ hol'
    refine ⟨out, ?_, o2, ?_⟩
    · rw [rotateExtract, rotate, rotate_eq (cmux T N k b l (convert T N flat)) (epTrunc T N k b l) N k hN0
        ((gl.map (convert T N)).drop r) (fun i g hi c0 c1 h0 h1 => ?_) m 0 _ (by simp [hgl', hbits]) (by omega) c1]
      · rw [← o1, Wop.blindRotate, pow_zero, List.take_of_length_le (by simp [hgl', hbits])]
      · have hi' : i < m := by
          have := (List.getElem?_eq_some_iff.1 hi).1
          simp [hgl', hbits] at this; exact this
        obtain ⟨q1, q2, _⟩ := hcm i hi' c0 c1 h0 h1
        refine ⟨?_, q2⟩
        rw [q1]
        rw [List.getElem?_drop, List.getElem?_map] at hi
        rw [List.getD_eq_getElem?_getD]
        cases hx : gl[r + i]? with
        | none => rw [hx] at hi; cases hi
        | some y =>
          rw [hx, Option.map_some, Option.some.injEq] at hi
          rw [Option.getD_some, hi]
    · rw [ext, Nat.div_eq_of_lt hlo, Nat.mod_eq_of_lt hlo, pow_zero, one_mul] at o3
      convert o3 using 4
      rw [indexOf_append', hdl, ← hN, block_getD _ _ _ _ _ hlo, block_getD _ _ _ _ _ (by
        calc indexOf (bits.take r).reverse * N + indexOf (bits.drop r) <
            indexOf (bits.take r).reverse * N + N := by omega
          _ = (indexOf (bits.take r).reverse + 1) * N := by rw [Nat.add_mul, Nat.one_mul]
          _ ≤ 2 ^ r * N := Nat.mul_le_mul_right _ hhi)]
      congr 1
      ring
  choose f hf using hone
  refine ⟨(List.range tau).attach.map fun t => f t.1 (List.mem_range.1 t.2), ?_, by simp, fun t ht => ?_⟩
  · rw [verticalPacking]
    simp only [hlc]
    rw [if_neg (by omega), show bits.length - r = m by omega, hct]
    apply mapM_id_some
    apply List.ext_getElem
    · simp [t1, ho]
    · intro i h1 h2
      have hi : i < tau := by simpa using h2
      have := (hf i hi).1
      rw [List.getD_eq_getElem?_getD, List.getD_eq_getElem?_getD, List.getElem?_eq_getElem (by omega),
        List.getElem?_eq_getElem (by omega), Option.getD_some, Option.getD_some] at this
      simp only [List.getElem_zipWith, List.getElem_map, List.getElem_attach, List.getElem_range]
      exact this
  · have hget : ((List.range tau).attach.map fun t => f t.1 (List.mem_range.1 t.2)).getD t [] = f t ht := by
      rw [List.getD_eq_getElem?_getD, List.getElem?_eq_getElem (by simpa using ht), Option.getD_some]
      simp
    rw [hget]
    exact (hf t ht).2

/-- C85, for at most one bit more than `log2 N`: the entry is the one whose index is spelled by the bits, as on the CPU
(C44). -/
theorem C85_lookup_partial (T : Transform w) (N m k b l r tau : Nat) (hN : N = 2 ^ m) (hw : 32 ≤ w)
    (hv : ValidParams w b l) (hb : b ≤ 31) (D B S E : Int) (hT : T.Accurate N (l * (k + 1)) D B) (hD : 2 ^ (b - 1) ≤ D)
    (hS0 : 0 ≤ S) (key : List (BitVec w)) (hk : KeyFits N k key) (hS : KeyBound S key) (ggsws : List (BitVec w))
    (bits : List Bool) (hbits : bits.length = r + m) (hr : r ≤ 1) (hm : m < 32)
    (hgl : ggsws.length = bits.length * (l * ((k + 1) * ((k + 1) * N))))
    (hg : BitsEnc N k b l key ((List.range bits.length).map (block (l * ((k + 1) * ((k + 1) * N))) ggsws)) bits E)
    (lut : List (BitVec w)) (hlut : lut.length = tau * (2 ^ r * N)) (mem : Nat → List (BitVec w))
    (lweOuts : List (List (BitVec w))) (ho : lweOuts.length = tau) (hol : ∀ o ∈ lweOuts, o.length = k * N + 1) :
    ∃ outs, verticalPacking T N k b l m bits.length tau ggsws lut mem lweOuts = some outs ∧ outs.length = tau ∧
      ∀ t, t < tau → Lwe.Fits key (outs.getD t []) ∧
        |(Lwe.phase key (outs.getD t []) - (block (2 ^ r * N) lut t).getD (indexOf bits) 0).toInt| ≤
            bits.length * epBound w N k b l S E B 2 := by
  have h := C85_vertical_packing_partial T N m k b l r tau hN hw hv hb D B S E hT hD hS0 key hk hS ggsws bits hbits
    (by omega) hm hgl hg lut hlut mem lweOuts ho hol
  have hrev : (bits.take r).reverse = bits.take r := by
    have hl : (bits.take r).length ≤ 1 := by rw [List.length_take]; omega
    generalize bits.take r = x at hl
    match x with
    | [] => rfl
    | [a] => rfl
    | _ :: _ :: _ => simp at hl
  rw [hrev, List.take_append_drop] at h
  exact h

/-- C85, not satisfied: with fewer bits than `log2 N` the number of layers wraps around, and the shift that computes
the number of tables is undefined. On the CPU (C44) such inputs select among the first entries. -/
theorem C85_few_bits_violated (T : Transform w) (N k b l m inputs tau : Nat) (h : inputs < m) (hm : m < 2 ^ 31)
    (ggsws lut : List (BitVec w)) (mem : Nat → List (BitVec w)) (lweOuts : List (List (BitVec w))) :
    verticalPacking T N k b l m inputs tau ggsws lut mem lweOuts = none := by
  have : layerCount inputs m = inputs + 2 ^ 32 - m := by
    rw [layerCount, Nat.mod_eq_of_lt (by omega)]
  rw [verticalPacking]
  simp only [this]
  rw [if_pos (by omega)]

/-- The noiseless GGSWs of a list of bits, one after the other. -/
theorem flat_bits (N k b l : Nat) (hN : 0 < N) (key : List (BitVec w)) (bits : List Bool) :
    let flat := (bits.map fun β => gadgetGgsw N k b l ((β.toNat : Int) : BitVec w)).flatten
    flat.length = bits.length * (l * ((k + 1) * ((k + 1) * N))) ∧
    BitsEnc N k b l key ((List.range bits.length).map (block (l * ((k + 1) * ((k + 1) * N))) flat)) bits 0 := by
  intro flat
  have hu : ∀ x ∈ bits.map fun β => gadgetGgsw N k b l ((β.toNat : Int) : BitVec w),
      x.length = l * ((k + 1) * ((k + 1) * N)) := by
    intro x hx
    obtain ⟨β, _, rfl⟩ := List.mem_map.1 hx
    exact (gadget_enc N k b l hN key _).1
  have hl : flat.length = bits.length * (l * ((k + 1) * ((k + 1) * N))) := by
    show (List.flatten _).length = _
    rw [flatten_length_uniform _ _ hu, List.length_map]
  refine ⟨hl, ?_⟩
  by_cases hl0 : l = 0
  · subst hl0
    refine ⟨by simp, fun i hi => ⟨fun _ _ => 0, fun _ _ h => absurd h (by omega), ?_⟩⟩
    have := (exists_bits N k b 0 hN key bits).2 i hi
    obtain ⟨_, _, h⟩ := this
    refine ⟨?_, fun j hj => absurd hj (by omega)⟩
    rw [Am.getD_map_range _ _ _ _ hi]
    simp [block]
  have hpos : 0 < l * ((k + 1) * ((k + 1) * N)) := by
    have := Nat.pos_of_ne_zero hl0
    positivity
  have : (List.range bits.length).map (block (l * ((k + 1) * ((k + 1) * N))) flat) =
      bits.map fun β => gadgetGgsw N k b l ((β.toNat : Int) : BitVec w) := by
    apply List.ext_getElem
    · simp
    · intro i h1 h2
      rw [List.getElem_map, List.getElem_range, block_flatten _ hpos _ hu i _ (List.getElem?_eq_getElem h2)]
  rw [this]
  exact exists_bits N k b l hN key bits

/-- The flat table `8, 16, ..., 64` (times `2^56`) and noiseless GGSWs of the bits 1, 0, 1, for `N = 2`. -/
def exampleTable : List (BitVec 64) := (List.range 8).map fun i => BitVec.ofNat 64 (8 * (i + 1)) <<< 56

/-- The GGSWs of the example. -/
def exampleGgsws : List (List (BitVec 64)) :=
  [true, false, true].map fun β => gadgetGgsw 2 1 3 4 ((β.toNat : Int) : BitVec 64)

/-- C85, not satisfied: with two bits more than `log2 N`, the vertical packings of the CPU and of the GPU give
different entries of the same table for the same bits. The bits 1, 0, 1 spell 5: the CPU outputs entry 5, the GPU
entry 3, which is the number spelled by 0, 1, 1. -/
theorem C85_order_violated :
    Wop.verticalPacking .debug (fun g o c => externalProduct (exactTransform 64 2) 2 1 3 4 o g c) 2 1
      (chunks 2 exampleTable) (List.replicate 3 0#64) (exampleGgsws.map (convert (exactTransform 64 2) 2)) =
      some [0#64, 0, exampleTable.getD (indexOf [true, false, true]) 0] ∧
    verticalPacking (exactTransform 64 2) 2 1 3 4 1 3 1 exampleGgsws.flatten exampleTable (fun _ => [])
      [List.replicate 3 0#64] = some [[0#64, 0, exampleTable.getD 3 0]] ∧
    indexOf [true, false, true] = 5 ∧ exampleTable.getD 3 0 ≠ exampleTable.getD 5 0 := by
  decide +kernel

/-- C85, not satisfied: the error of the CMUX of the GPU can exceed the bound of the CMUX of the CPU (`epBound` with 1,
here half of the last place), even with a noiseless GGSW, an exact transform and the key zero. Here the difference is
just below the last place: it is truncated to zero. -/
theorem C85_rounding_violated : ∃ c0 c1 : List (BitVec 32), CtFits 1 1 c0 ∧ CtFits 1 1 c1 ∧
    ∃ ggsw : List (BitVec 32), GgswEnc 1 1 8 1 [0#32] ggsw 1 (fun _ _ => 0) ∧
    epBound 32 1 1 8 1 0 0 0 1 = 2 ^ 23 ∧
    glwePhase 1 1 [0#32] (cmux (exactTransform 32 1) 1 1 8 1 (convert (exactTransform 32 1) 1 ggsw) 0 c0 c1) =
      glwePhase 1 1 [0#32] c1 - AdjoinRoot.of _ (((2 ^ 24 - 1 : Int)) : BitVec 32) ∧
    glwePhase 1 1 [0#32] (cmuxFft (exactTransform 32 1) 1 1 8 1 (convert (exactTransform 32 1) 1 ggsw) c0 c1) =
      glwePhase 1 1 [0#32] c1 + 1 := by
  have hph : ∀ x : BitVec 32, glwePhase 1 1 [0#32] [0#32, x] = AdjoinRoot.of _ x := by
    intro x
    refine (C31_trivial_accumulator 1 1 (by decide) [0#32] [x] rfl).2.trans ?_
    rw [toRq_sum]
    simp
  refine ⟨[0#32, 0#32], [0#32, 0xFFFFFF#32], rfl, rfl, gadgetGgsw 1 1 8 1 1, ?_, by decide +kernel, ?_, ?_⟩
  · have := gadget_enc 1 1 8 1 (by decide) [0#32] (1 : BitVec 32)
    rwa [map_one] at this
  · have : cmux (exactTransform 32 1) 1 1 8 1 (convert (exactTransform 32 1) 1 (gadgetGgsw 1 1 8 1 1)) 0
      [0#32, 0#32] [0#32, 0xFFFFFF#32] = [0#32, 0#32] := by decide +kernel
    rw [this, hph, hph, ← map_sub]
    congr 1
  · have : cmuxFft (exactTransform 32 1) 1 1 8 1 (convert (exactTransform 32 1) 1 (gadgetGgsw 1 1 8 1 1))
      [0#32, 0#32] [0#32, 0xFFFFFF#32] = [0#32, 0x1000000#32] := by decide +kernel
    rw [this, hph, hph, ← map_one (AdjoinRoot.of _), ← map_add]
    congr 1

/-- The hypotheses of C85 hold together: the GGSWs of the example, two tables, a binary key. -/
example : ∃ (ggsws lut : List (BitVec 64)) (lweOuts : List (List (BitVec 64))),
    ggsws.length = 3 * (4 * ((1 + 1) * ((1 + 1) * 2))) ∧
    BitsEnc 2 1 3 4 [1, 1] ((List.range 3).map (block (4 * ((1 + 1) * ((1 + 1) * 2))) ggsws)) [true, false, true] 0 ∧
    ValidParams 64 3 4 ∧ KeyFits 2 1 [1#64, 1] ∧ KeyBound 1 [1#64, 1] ∧ (2 : Nat) = 2 ^ 1 ∧
    (exactTransform 64 2).Accurate 2 (4 * (1 + 1)) 4 0 ∧ lut.length = 2 * (2 ^ 2 * 2) ∧ lweOuts.length = 2 ∧
    ∀ o ∈ lweOuts, o.length = 1 * 2 + 1 := by
  obtain ⟨h1, h2⟩ := flat_bits (w := 64) 2 1 3 4 (by decide) [1, 1] [true, false, true]
  refine ⟨_, exampleTable ++ exampleTable, List.replicate 2 (List.replicate 3 0), h1, h2,
    ⟨by decide, by decide, by decide⟩, rfl, ?_, rfl, exact_accurate _ _ (by decide) _, rfl, rfl, ?_⟩
  · intro x hx
    simp only [List.mem_cons, List.not_mem_nil, or_false] at hx
    rcases hx with rfl | rfl <;> decide
  · intro o ho
    rw [List.eq_of_mem_replicate ho]; rfl

/-- One layer, two tables: the bits 1, 1 select entry 3 of both. -/
example : verticalPacking (exactTransform 64 2) 2 1 3 4 1 2 2
    ([true, true].map fun β => gadgetGgsw 2 1 3 4 ((β.toNat : Int) : BitVec 64)).flatten exampleTable (fun _ => [])
    (List.replicate 2 (List.replicate 3 0#64)) = some [[0#64, 0, 32#64 <<< 56], [0, 0, 64#64 <<< 56]] := by
  decide +kernel

end Verif.Cuda.Vp
