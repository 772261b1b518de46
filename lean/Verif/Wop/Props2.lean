import Verif.Wop.Props
import Mathlib.Data.Nat.Size
/-
C44: vertical packing.
-/
namespace Verif.Wop
open Verif Verif.Poly Verif.Glwe Verif.Pbs Verif.Decomp
open Verif.Csprng (Build)

variable {w : Nat} {G : Type}

theorem indexOf_append' (a b : List Bool) : indexOf (a ++ b) = indexOf a * 2 ^ b.length + indexOf b := by
  induction a with
  | nil => simp [indexOf]
  | cons x a ih =>
    rw [List.cons_append, indexOf, indexOf, ih, List.length_append, pow_add]
    split <;> ring

/-- Extracting the constant coefficient of a ciphertext whose phase is `X^(-d) v` up to an error. -/
theorem extract_rotated {N k : Nat} (hN : 0 < N) {key v ct lweOut : List (BitVec w)} (hk : KeyFits N k key)
    (hv : v.length = N) (hc : CtFits N k ct) (ho : lweOut.length = k * N + 1) {d : Nat} {B : Int} {e : Rq (BitVec w) N}
    (he : Small N B e) (hp : Xq (BitVec w) N ^ d * glwePhase N k key ct = toRq N v + e) :
    ∃ r, sampleExtract N ct lweOut 0 = some r ∧ Lwe.Fits key r ∧
      |(Lwe.phase key r - ext N v d).toInt| ≤ B := by
  obtain ⟨r, r1, r2, r3⟩ := sampleExtract_spec N k hN key (List.replicate N 0) ct lweOut hk hc (by simp) ho 0 hN
  refine ⟨r, r1, r2, ?_⟩
  obtain ⟨q1, q2⟩ := decryptGlwe_spec N k hN key (List.replicate N 0) ct hk hc (by simp)
  rw [r3]
  have hd1 : Xq (BitVec w) N ^ d * (-(Xq (BitVec w) N ^ (N - 1))) ^ d = 1 := by
    rw [← mul_pow, Xq_unit N hN, one_pow]
  have hdiv := monomialDiv_toRq N hN v hv d
  have hinv : -(Xq (BitVec w) N ^ (N - 1)) = Xq (BitVec w) N ^ (2 * N - 1) := by
    have : 2 * N - 1 = N + (N - 1) := by omega
    rw [this, pow_add, Xq_pow]; ring
  have hfin : toRq N (decryptGlwe N key (List.replicate N 0) ct) - toRq N (monomialDiv v d) =
      Xq (BitVec w) N ^ ((2 * N - 1) * d) * e := by
    rw [q2, pow_mul, ← hinv]
    rw [← hdiv] at hp
    linear_combination ((-(Xq (BitVec w) N ^ (N - 1))) ^ d) * hp -
      (glwePhase N k key ct - toRq N (monomialDiv v d)) * hd1
  have hml : (monomialDiv v d).length = N := by rw [monomialDiv_length, hv]
  have hsm := he.monomial hN ((2 * N - 1) * d)
  rw [← hfin, ← toRq_sub N _ _ (by rw [q1, hml])] at hsm
  have hc := hsm.coeff hN _ (by rw [Poly.sub, zipUpdate_length, q1]) rfl 0
  rw [Poly.sub, zipUpdate_getD _ _ _ 0 0 0 (by omega) (by omega), monomialDiv_getD N hN v hv d 0 hN, Nat.zero_add] at hc
  exact hc

theorem rotateLoop_spec (ep : G → List (BitVec w) → List (BitVec w) → List (BitVec w)) {N k : Nat} (hN : 0 < N)
    (key : List (BitVec w)) (C : Int) : ∀ (gs : List G) (bs : List Bool) (t degree : Nat) (ct : List (BitVec w)),
    gs.length = bs.length → CmuxOk ep N k key C gs bs → CtFits N k ct → t + gs.length ≤ 64 →
    (gs ≠ [] → degree = 2 ^ t) →
    CtFits N k (rotateLoop (fun g c0 c1 => (cmux (ep g) c0 c1).1) N gs degree ct) ∧
    ∃ e : Rq (BitVec w) N, Small N (bs.length * C) e ∧
      Xq (BitVec w) N ^ (2 ^ t * indexOf bs.reverse) *
        glwePhase N k key (rotateLoop (fun g c0 c1 => (cmux (ep g) c0 c1).1) N gs degree ct) =
        glwePhase N k key ct + e
  | [], [], t, degree, ct, _, _, hc, _, _ => by
    refine ⟨hc, 0, Poly.small_zero N _ (by simp), ?_⟩
    simp [indexOf, rotateLoop]
  | [], _ :: _, _, _, _, h, _, _, _, _ => by simp at h
  | _ :: _, [], _, _, _, h, _, _, _, _ => by simp at h
  | g :: gs, β :: bs, t, degree, ct, hl, hcm, hc, ht, hd => by
    have hdeg := hd (by simp)
    subst hdeg
    simp only [List.length_cons] at ht hl
    obtain ⟨-, m1, m2⟩ := phase_mono N k hN key ct hc (2 ^ t)
    obtain ⟨a1, e1, a2, a3⟩ := hcm 0 g β rfl rfl ct _ hc m1
    obtain ⟨b1, e2, b2, b3⟩ := rotateLoop_spec ep hN key C gs bs (t + 1) (2 ^ t * 2 % 2 ^ 64)
      (cmux (ep g) ct (listMonomialDiv N ct (2 ^ t))).1 (by omega)
      (fun i g' β' h1 h2 => hcm (i + 1) g' β' (by simpa using h1) (by simpa using h2)) a1 (by omega)
      (fun hne => by
        have : 0 < gs.length := List.length_pos_iff.2 hne
        rw [← pow_succ, Nat.mod_eq_of_lt]
        exact Nat.pow_lt_pow_right (by norm_num) (by omega))
    simp only [rotateLoop]
    refine ⟨b1, Xq (BitVec w) N ^ (if β then 2 ^ t else 0) * (e1 + e2), ?_, ?_⟩
    · have : (((β :: bs).length : Nat) : Int) * C = C + bs.length * C := by
        rw [List.length_cons]; push_cast; ring
      rw [this]
      exact (a2.add b2).monomial hN _
    · have hexp : 2 ^ t * indexOf (β :: bs).reverse =
          (if β then 2 ^ t else 0) + 2 ^ (t + 1) * indexOf bs.reverse := by
        rw [List.reverse_cons, indexOf_append, pow_succ]
        split <;> ring
      rw [hexp, pow_add, mul_assoc, b3, a3]
      cases β
      · simp; ring
      · simp only [if_true]
        rw [← m2]; ring

/-- The number of GGSWs used by the CMUX tree, for 64-bit words. -/
theorem logLutNumber_64 (bld : Build) (r : Nat) (hr : r < 64) : logLutNumber bld 64 (2 ^ r) = some r := by
  have : Nat.size (2 ^ r) = r + 1 := Nat.size_pow
  simp only [logLutNumber, this]
  rw [if_pos (by omega)]
  congr 1; omega

/-- Vertical packing after the choice of the number of CMUX layers. -/
theorem pack_spec (ep : G → List (BitVec w) → List (BitVec w) → List (BitVec w)) {N k : Nat} (hN : 0 < N)
    (key : List (BitVec w)) (hk : KeyFits N k key) (C : Int) (gs : List G) (bs : List Bool) (hl : gs.length = bs.length)
    (h : CmuxOk ep N k key C gs bs) (r : Nat) (hr : r ≤ bs.length)
    (hbr : bs.length - r ≤ 64) (ct : List (BitVec w)) (hc : CtFits N k ct) (v : List (BitVec w)) (hv : v.length = N)
    (e : Rq (BitVec w) N) (he : Small N (r * C) e) (hp : glwePhase N k key ct = toRq N v + e)
    (lweOut : List (BitVec w)) (ho : lweOut.length = k * N + 1) :
    ∃ out, sampleExtract N (blindRotate (fun g c0 c1 => (cmux (ep g) c0 c1).1) N ct (gs.drop r)) lweOut 0 = some out ∧
      Lwe.Fits key out ∧
      |(Lwe.phase key out - ext N v (indexOf (bs.drop r))).toInt| ≤ bs.length * C := by
  obtain ⟨a1, e', a2, a3⟩ := rotateLoop_spec ep hN key C (gs.drop r).reverse (bs.drop r).reverse 0 1 ct (by simp [hl])
    ((h.drop r).reverse (by simp [hl])) hc (by simp [hl]; omega) (fun _ => rfl)
  rw [List.reverse_reverse, pow_zero, Nat.one_mul, hp] at a3
  refine extract_rotated hN hk hv a1 ho (e := e + e') ?_ (by rw [a3]; ring)
  have : (bs.length : Int) * C = r * C + ((bs.drop r).reverse.length : Nat) * C := by
    rw [List.length_reverse, List.length_drop, Nat.cast_sub hr]; ring
  rw [this]
  exact he.add a2

/-- C44: on `2^r` lookup polynomials and GGSW encryptions of at least `r` bits, the vertical packing (64-bit
words) outputs an LWE ciphertext whose phase is, up to one CMUX error per bit, the coefficient given by the
last bits of the polynomial given by the first `r` bits. -/
theorem C44_vertical_packing (bld : Build) (hw : w = 64) (T : Transform w) (N k b l : Nat) (hN : 0 < N) (D B S E : Int)
    (hT : T.Accurate N (l * (k + 1)) D B) (hD : 2 ^ (b - 1) ≤ D) (h : ValidParams w b l) (hS0 : 0 ≤ S)
    (key : List (BitVec w)) (hk : KeyFits N k key) (hS : KeyBound S key) (ggsws : List (List (BitVec w)))
    (bits : List Bool) (hg : BitsEnc N k b l key ggsws bits E) (luts : List (List (BitVec w))) (r : Nat)
    (hn : luts.length = 2 ^ r) (hr : r < 64) (hrb : r ≤ bits.length) (hbr : bits.length - r ≤ 64)
    (hx : ∀ x ∈ luts, x.length = N) (lweOut : List (BitVec w)) (ho : lweOut.length = k * N + 1) :
    ∃ out, verticalPacking bld (fun g o c => externalProduct T N k b l o g c) N k luts lweOut
        (ggsws.map (convert T N)) = some out ∧ Lwe.Fits key out ∧
      |(Lwe.phase key out - ext N (luts.getD (indexOf (bits.take r)) []) (indexOf (bits.drop r))).toInt| ≤
        bits.length * epBound w N k b l S E B 1 := by
  have hcm := cmuxOk_of_enc T N k b l hN D B S E hT hD h hS0 key hk hS ggsws bits hg
  have hlen : (ggsws.map (convert T N)).length = bits.length := by rw [List.length_map, hg.1]
  have htl : (bits.take r).length = r := by rw [List.length_take]; omega
  obtain ⟨ct, c1, c2, e, c3, c4⟩ := cmuxTree_spec bld _ N k hN key _ _ _ (by simp [hg.1]) (hcm.take r)
    (List.replicate (N * (k + 1)) 0#w) (by rw [CtFits, List.length_replicate]; ring) luts (by rw [htl, hn]) hx
  have hidx : indexOf (bits.take r) < luts.length := by
    rw [hn]; calc _ < 2 ^ (bits.take r).length := indexOf_lt _
      _ = 2 ^ r := by rw [htl]
  rw [htl] at c3
  obtain ⟨out, o1, o2, o3⟩ := pack_spec _ hN key hk _ _ bits hlen hcm r hrb hbr ct c2
    (luts.getD (indexOf (bits.take r)) []) (hx _ (by
      rw [List.getD_eq_getElem?_getD, List.getElem?_eq_getElem hidx]; exact List.getElem_mem _)) e c3 c4 lweOut ho
  refine ⟨out, ?_, o2, o3⟩
  rw [verticalPacking, if_neg (by rintro ⟨_, h'⟩; exact h' (by rw [ho, Nat.add_sub_cancel]; ring))]
  have : logLutNumber bld w luts.length = some r := by rw [hn, hw]; exact logLutNumber_64 bld r hr
  simp only [this]
  rw [if_neg (by rw [hlen]; omega), c1]
  exact o1

/-- C44, for a table given as a flat list of `2^r N` values with `N = 2^m` and `r + m` bits: the output is a
ciphertext of the entry whose index is spelled by the bits, the first one being the most significant. -/
theorem C44_lookup (bld : Build) (hw : w = 64) (T : Transform w) (N m k b l : Nat) (hN : N = 2 ^ m) (D B S E : Int)
    (hT : T.Accurate N (l * (k + 1)) D B) (hD : 2 ^ (b - 1) ≤ D) (h : ValidParams w b l) (hS0 : 0 ≤ S)
    (key : List (BitVec w)) (hk : KeyFits N k key) (hS : KeyBound S key) (ggsws : List (List (BitVec w)))
    (bits : List Bool) (hg : BitsEnc N k b l key ggsws bits E) (table : List (BitVec w)) (r : Nat)
    (hn : table.length = 2 ^ r * N) (hr : r < 64) (hm : m ≤ 64) (hbits : bits.length = r + m)
    (lweOut : List (BitVec w)) (ho : lweOut.length = k * N + 1) :
    ∃ out, verticalPacking bld (fun g o c => externalProduct T N k b l o g c) N k (chunks N table) lweOut
        (ggsws.map (convert T N)) = some out ∧ Lwe.Fits key out ∧
      |(Lwe.phase key out - table.getD (indexOf bits) 0).toInt| ≤ (r + m) * epBound w N k b l S E B 1 := by
  have hN0 : 0 < N := by rw [hN]; positivity
  have hcl := chunks_length N hN0 _ table hn
  have heq := chunks_eq N hN0 _ table hn
  obtain ⟨out, o1, o2, o3⟩ := C44_vertical_packing bld hw T N k b l hN0 D B S E hT hD h hS0 key hk hS ggsws bits hg
    (chunks N table) r hcl hr (by omega) (by omega) (fun x hx => by
      rw [heq] at hx
      obtain ⟨i, hi, rfl⟩ := List.mem_map.1 hx
      exact block_len N _ i table hn (List.mem_range.1 hi)) lweOut ho
  refine ⟨out, o1, o2, ?_⟩
  have hd : (bits.drop r).length = m := by rw [List.length_drop]; omega
  have ht : (bits.take r).length = r := by rw [List.length_take]; omega
  have h1 : indexOf (bits.take r) < 2 ^ r := by
    calc _ < 2 ^ (bits.take r).length := indexOf_lt _
      _ = 2 ^ r := by rw [ht]
  have h2 : indexOf (bits.drop r) < N := by
    calc _ < 2 ^ (bits.drop r).length := indexOf_lt _
      _ = N := by rw [hd, hN]
  have h3 : indexOf bits = indexOf (bits.take r) * N + indexOf (bits.drop r) := by
    conv_lhs => rw [← List.take_append_drop r bits]
    rw [indexOf_append', hd, hN]
  have h4 : ext N ((chunks N table).getD (indexOf (bits.take r)) []) (indexOf (bits.drop r)) =
      table.getD (indexOf bits) 0 := by
    rw [ext, Nat.div_eq_of_lt h2, Nat.mod_eq_of_lt h2, pow_zero, one_mul, heq]
    rw [List.getD_eq_getElem?_getD (l := List.map _ _), List.getElem?_map, List.getElem?_range h1, Option.map_some,
      Option.getD_some, h3, block_getD _ _ _ _ _ h2]
  rw [h4] at o3
  rw [hbits] at o3
  exact_mod_cast o3

/-- C44 with too few GGSWs for the number of tables: a debug build panics. -/
theorem C44_too_few (hw : w = 64) (ep : G → List (BitVec w) → List (BitVec w) → List (BitVec w)) (N k : Nat)
    (luts : List (List (BitVec w))) (lweOut : List (BitVec w)) (gs : List G) (r : Nat) (hr : r < 64)
    (hn : luts.length = 2 ^ r) (h : gs.length < r) : verticalPacking .debug ep N k luts lweOut gs = none := by
  rw [verticalPacking]
  split
  · rfl
  · have : logLutNumber .debug w luts.length = some r := by rw [hn, hw]; exact logLutNumber_64 _ r hr
    simp only [this]
    rw [if_pos h]
    have : cmuxTree .debug ep N k (List.replicate (N * (k + 1)) 0#w) luts (List.take 0 gs) = none := by
      apply C43_wrong_count
      rw [hn, List.take_zero, List.length_nil, pow_zero]
      have := Nat.one_lt_two_pow (n := r) (by omega)
      omega
    rw [this]

/-! ### 32-bit words -/

/-- Finding: the number of CMUX layers is computed as `32 - 1 - leading_zeros(count)` on a 64-bit count, so
with 32-bit words and fewer than `2^32` tables the vertical packing always panics in debug builds. -/
theorem C44_u32_debug (ep : G → List (BitVec 32) → List (BitVec 32) → List (BitVec 32)) (N k : Nat)
    (luts : List (List (BitVec 32))) (lweOut : List (BitVec 32)) (gs : List G) (h : luts.length < 2 ^ 32) :
    verticalPacking .debug ep N k luts lweOut gs = none := by
  have hs : Nat.size luts.length ≤ 32 := Nat.size_le.2 h
  have : logLutNumber .debug 32 luts.length = none := by
    simp only [logLutNumber]
    rw [if_neg (by omega)]
  rw [verticalPacking, this]
  split <;> rfl

/-- Finding: in release builds the wrapped value is larger than the number of GGSWs, so the 32-bit vertical
packing ignores every table but the first one, and rotates it by the number spelled by all the bits. -/
theorem C44_u32_release_violated (T : Transform 32) (N k b l : Nat) (hN : 0 < N) (D B S E : Int)
    (hT : T.Accurate N (l * (k + 1)) D B) (hD : 2 ^ (b - 1) ≤ D) (h : ValidParams 32 b l) (hS0 : 0 ≤ S)
    (key : List (BitVec 32)) (hk : KeyFits N k key) (hS : KeyBound S key) (ggsws : List (List (BitVec 32)))
    (bits : List Bool) (hg : BitsEnc N k b l key ggsws bits E) (lut : List (BitVec 32)) (luts : List (List (BitVec 32)))
    (hn : (lut :: luts).length < 2 ^ 32) (hb : bits.length ≤ 64)
    (hx : lut.length = N) (lweOut : List (BitVec 32)) (ho : lweOut.length = k * N + 1) :
    ∃ out, verticalPacking .release (fun g o c => externalProduct T N k b l o g c) N k (lut :: luts) lweOut
        (ggsws.map (convert T N)) = some out ∧ Lwe.Fits key out ∧
      |(Lwe.phase key out - ext N lut (indexOf bits)).toInt| ≤ bits.length * epBound 32 N k b l S E B 1 := by
  have hcm := cmuxOk_of_enc T N k b l hN D B S E hT hD h hS0 key hk hS ggsws bits hg
  have hlen : (ggsws.map (convert T N)).length = bits.length := by rw [List.length_map, hg.1]
  have hs : Nat.size (lut :: luts).length ≤ 32 := Nat.size_le.2 hn
  have hlog : logLutNumber .release 32 (lut :: luts).length = some (2 ^ 64 + 32 - 1 - (64 - Nat.size (lut :: luts).length)) := by
    simp only [logLutNumber]
    rw [if_neg (by omega)]
  have htree : cmuxTree .release (fun g o c => externalProduct T N k b l o g c) N k
      (List.replicate (N * (k + 1)) 0#32) (lut :: luts) (List.take 0 (ggsws.map (convert T N))) =
      some (List.replicate (k * N) 0#32 ++ lut) := by
    rw [cmuxTree, if_neg (by simp), List.take_zero, if_neg (by simp), fillTrivialGlwe, maskOf, bodyOf]
    simp only [List.length_replicate]
    rw [show N * (k + 1) - N = k * N by rw [show N * (k + 1) = k * N + N by ring, Nat.add_sub_cancel],
      List.map_const', List.length_take, List.length_replicate, List.drop_replicate,
      show min (k * N) (N * (k + 1)) = k * N from min_eq_left (by rw [show N * (k + 1) = k * N + N by ring]; omega),
      show N * (k + 1) - k * N = N by rw [show N * (k + 1) = k * N + N by ring]; omega]
    congr 2
    apply List.ext_getElem?
    intro i
    rw [zipUpdate_getElem?]
    by_cases hi : i < N
    · rw [List.getElem?_eq_getElem (by simpa using hi), List.flatten_cons, List.getElem?_append_left (by omega),
        List.getElem?_eq_getElem (by omega : i < lut.length)]
    · rw [List.getElem?_eq_none (by simpa using hi), List.getElem?_eq_none (by omega : lut.length ≤ i)]
  obtain ⟨t1, t2⟩ := C31_trivial_accumulator N k hN key lut hx
  obtain ⟨out, o1, o2, o3⟩ := pack_spec _ hN key hk _ _ bits hlen hcm 0 (by omega) (by omega) _ t1 lut hx
    0 (Poly.small_zero N _ (by simp)) (by rw [t2, add_zero]) lweOut ho
  refine ⟨out, ?_, o2, o3⟩
  rw [verticalPacking, if_neg (by simp)]
  simp only [hlog]
  rw [if_pos (by rw [hlen]; omega), htree]
  exact o1

end Verif.Wop
