import Verif.Wop.Tree
import Verif.Glwe.Props3
/-
C43 (CMUX tree) and C44 (vertical packing).
-/
namespace Verif.Wop
open Verif Verif.Poly Verif.Glwe Verif.Pbs Verif.Decomp
open Verif.Csprng (Build)

variable {w : Nat} {G : Type}

theorem indexOf_append (bs : List Bool) (b : Bool) : indexOf (bs ++ [b]) = 2 * indexOf bs + (if b then 1 else 0) := by
  induction bs with
  | nil => cases b <;> rfl
  | cons a bs ih =>
    rw [List.cons_append, indexOf, indexOf, ih, List.length_append, List.length_singleton, pow_succ]
    split <;> ring

theorem indexOf_lt (bs : List Bool) : indexOf bs < 2 ^ bs.length := by
  induction bs with
  | nil => simp [indexOf]
  | cons a bs ih =>
    rw [indexOf, List.length_cons, pow_succ]
    split <;> omega

theorem zipWith_sub_eq (a b : List (BitVec w)) (h : a.length = b.length) :
    List.zipWith (fun x y => x - y) a b = zipUpdate (fun x y => x - y) a b :=
  (zipUpdate_eq_zipWith _ _ _ h.le).symm

/-- What a CMUX made of the external product `ep` must do for `gs` and the bits `bs`. -/
def CmuxOk (ep : G → List (BitVec w) → List (BitVec w) → List (BitVec w)) (N k : Nat) (key : List (BitVec w)) (C : Int)
    (gs : List G) (bs : List Bool) : Prop :=
  ∀ (i : Nat) (g : G) (β : Bool), gs[i]? = some g → bs[i]? = some β → ∀ c0 c1, CtFits N k c0 → CtFits N k c1 →
    CtFits N k (cmux (ep g) c0 c1).1 ∧ ∃ e : Rq (BitVec w) N, Small N C e ∧
      glwePhase N k key (cmux (ep g) c0 c1).1 = (if β then glwePhase N k key c1 else glwePhase N k key c0) + e

/-- Transformed GGSW encryptions of bits make correct CMUXes. -/
theorem cmuxOk_of_enc (T : Transform w) (N k b l : Nat) (hN : 0 < N) (D B S E : Int)
    (hT : T.Accurate N (l * (k + 1)) D B) (hD : 2 ^ (b - 1) ≤ D) (h : ValidParams w b l) (hS0 : 0 ≤ S)
    (key : List (BitVec w)) (hk : KeyFits N k key) (hS : KeyBound S key) (ggsws : List (List (BitVec w)))
    (bits : List Bool) (hg : BitsEnc N k b l key ggsws bits E) :
    CmuxOk (fun g o c => externalProduct T N k b l o g c) N k key (epBound w N k b l S E B 1)
      (ggsws.map (convert T N)) bits := by
  intro i g β hi hβ c0 c1 h0 h1
  have hib : i < bits.length := (List.getElem?_eq_some_iff.1 hβ).1
  have hig : i < ggsws.length := by rw [hg.1]; exact hib
  obtain ⟨err, e1, e2⟩ := hg.2 i hib
  rw [List.getElem?_map, List.getElem?_eq_getElem hig, Option.map_some, Option.some.injEq] at hi
  have e3 : ggsws.getD i [] = ggsws[i] := by
    rw [List.getD_eq_getElem?_getD, List.getElem?_eq_getElem hig]; rfl
  have e4 : bits.getD i false = β := by
    rw [List.getD_eq_getElem?_getD, hβ]; rfl
  rw [e3, e4] at e2
  obtain ⟨a1, ⟨e, a2, a3⟩, -⟩ := C28_cmux T N k b l hN D B S E hT hD h key ggsws[i] c0 c1 β err hk hS h0 h1 e2 e1
  subst hi
  refine ⟨a1, e, a2.mono (epBound_mono N k b l hS0 ?_), a3⟩
  split <;> norm_num

theorem CmuxOk.reverse {ep : G → List (BitVec w) → List (BitVec w) → List (BitVec w)} {N k : Nat}
    {key : List (BitVec w)} {C : Int} {gs : List G} {bs : List Bool} (hl : gs.length = bs.length)
    (h : CmuxOk ep N k key C gs bs) : CmuxOk ep N k key C gs.reverse bs.reverse := by
  intro i g β hi hβ
  have hib : i < bs.length := by simpa using (List.getElem?_eq_some_iff.1 hβ).1
  rw [List.getElem?_reverse (by omega)] at hi
  rw [List.getElem?_reverse hib] at hβ
  exact h _ g β hi (by rw [hl]; exact hβ)

theorem CmuxOk.take {ep : G → List (BitVec w) → List (BitVec w) → List (BitVec w)} {N k : Nat}
    {key : List (BitVec w)} {C : Int} {gs : List G} {bs : List Bool}
    (h : CmuxOk ep N k key C gs bs) (n : Nat) : CmuxOk ep N k key C (gs.take n) (bs.take n) := by
  intro i g β hi hβ
  rw [List.getElem?_take] at hi hβ
  split at hi
  · rename_i hin
    rw [if_pos hin] at hβ
    exact h i g β hi hβ
  · cases hi

theorem CmuxOk.drop {ep : G → List (BitVec w) → List (BitVec w) → List (BitVec w)} {N k : Nat}
    {key : List (BitVec w)} {C : Int} {gs : List G} {bs : List Bool}
    (h : CmuxOk ep N k key C gs bs) (n : Nat) : CmuxOk ep N k key C (gs.drop n) (bs.drop n) := by
  intro i g β hi hβ
  rw [List.getElem?_drop] at hi hβ
  exact h _ g β hi hβ

/-- The CMUX tree, for any correct CMUX. -/
theorem cmuxTree_spec (bld : Build) (ep : G → List (BitVec w) → List (BitVec w) → List (BitVec w)) (N k : Nat)
    (hN : 0 < N) (key : List (BitVec w)) (C : Int) (gs : List G) (bs : List Bool) (hl : gs.length = bs.length)
    (h : CmuxOk ep N k key C gs bs) (out : List (BitVec w)) (ho : CtFits N k out) (luts : List (List (BitVec w)))
    (hn : luts.length = 2 ^ bs.length) (hx : ∀ x ∈ luts, x.length = N) :
    ∃ r, cmuxTree bld ep N k out luts gs = some r ∧ CtFits N k r ∧ ∃ e : Rq (BitVec w) N,
      Small N (bs.length * C) e ∧ glwePhase N k key r = toRq N (luts.getD (indexOf bs) []) + e := by
  rw [cmuxTree, if_neg (by rw [hl]; exact fun h => h.2 hn)]
  by_cases hg : 0 < gs.length
  · rw [if_pos hg]
    have hrev := h.reverse hl
    let Q : Nat → Nat → List (BitVec w) → Prop := fun j i ct => CtFits N k ct ∧ ∃ e : Rq (BitVec w) N,
      Small N (j * C) e ∧
        glwePhase N k key ct = toRq N (luts.getD (i * 2 ^ j + indexOf (bs.reverse.take j).reverse) []) + e
    have hstep : ∀ i g, gs.reverse[i]? = some g → ∀ m c0 c1, Q i (2 * m) c0 → Q i (2 * m + 1) c1 →
        Q (i + 1) m (ep g c0 (List.zipWith (fun a b => a - b) c1 c0)) := by
      rintro i g hi m c0 c1 ⟨f0, e0, s0, p0⟩ ⟨f1, e1, s1, p1⟩
      have hib : i < bs.reverse.length := by
        have := (List.getElem?_eq_some_iff.1 hi).1; simpa [hl] using this
      obtain ⟨a1, e, a2, a3⟩ := hrev i g _ hi (List.getElem?_eq_getElem hib) c0 c1 f0 f1
      rw [zipWith_sub_eq c1 c0 (by rw [f0, f1])]
      have htake : (bs.reverse.take (i + 1)).reverse = bs.reverse[i] :: (bs.reverse.take i).reverse := by
        rw [List.take_succ_eq_append_getElem hib, List.reverse_append, List.reverse_singleton, List.singleton_append]
      have hlen : (bs.reverse.take i).reverse.length = i := by
        rw [List.length_reverse, List.length_take]; omega
      refine ⟨a1, ?_⟩
      rw [show ep g c0 (zipUpdate (fun x y => x - y) c1 c0) = (cmux (ep g) c0 c1).1 from rfl, a3, htake, indexOf, hlen]
      have hcast : ((i + 1 : Nat) : Int) * C = i * C + C := by push_cast; ring
      cases hβ : bs.reverse[i]
      · refine ⟨e0 + e, by rw [hcast]; exact s0.add a2, ?_⟩
        simp only [Bool.false_eq_true, if_false]
        rw [p0, show 2 * m * 2 ^ i + indexOf (bs.reverse.take i).reverse =
          m * 2 ^ (i + 1) + (0 + indexOf (bs.reverse.take i).reverse) by ring]
        ring
      · refine ⟨e1 + e, by rw [hcast]; exact s1.add a2, ?_⟩
        simp only [if_true]
        rw [p1, show (2 * m + 1) * 2 ^ i + indexOf (bs.reverse.take i).reverse =
          m * 2 ^ (i + 1) + (2 ^ i + indexOf (bs.reverse.take i).reverse) by ring]
        ring
    obtain ⟨n, hn1⟩ : ∃ n, bs.length = n + 1 := ⟨bs.length - 1, by omega⟩
    have hp2 : (2 : Nat) ^ bs.length = 2 * (2 ^ n - 1 + 1) := by
      have : 0 < 2 ^ n := by positivity
      rw [hn1, pow_succ]; omega
    have hblank : Blank N k (List.replicate (N * (k + 1)) (0#w)) := by
      refine ⟨by rw [List.length_replicate]; ring, ?_⟩
      rw [maskOf, List.length_replicate, List.take_replicate]
      congr 1
      rw [show N * (k + 1) = k * N + N by ring]; omega
    obtain ⟨m, hm⟩ : ∃ m, gs.length = m + 1 := ⟨gs.length - 1, by omega⟩
    have := treeLoop_spec ep N k Q gs.reverse (by simpa using hg) hstep (2 ^ n - 1) luts 0
      { t0 := List.replicate (N * (k + 1)) 0#w, t1 := List.replicate (N * (k + 1)) 0#w, fill := 0 }
      (List.replicate m { t0 := List.replicate (N * (k + 1)) 0#w, t1 := List.replicate (N * (k + 1)) 0#w, fill := 0 })
      out (by rw [hn, hp2]) (by rw [List.length_reverse, hl, hn]; omega) hx
      (fun i x hix => by
        obtain ⟨t1, t2⟩ := C31_trivial_accumulator N k hN key x (hx x (List.mem_of_getElem? hix))
        refine ⟨t1, 0, Poly.small_zero N _ (by simp), ?_⟩
        rw [show (List.replicate (k * N) (0 : BitVec w) ++ x) = List.replicate (k * N) 0#w ++ x from rfl, t2]
        simp [indexOf, List.getD_eq_getElem?_getD, hix])
      hblank hblank (by rw [List.length_reverse, List.length_replicate, hm]) (counter_zero Q _ _ (m + 1) 0)
    obtain ⟨f1, e, s1, p1⟩ := this
    refine ⟨_, rfl, ?_⟩
    rw [hm, List.replicate_succ]
    refine ⟨f1, e, ?_, ?_⟩
    · rw [List.length_reverse, hl] at s1; exact s1
    · rw [p1]
      have : (bs.reverse.take gs.reverse.length).reverse = bs := by
        rw [List.length_reverse, hl, ← List.length_reverse, List.take_length, List.reverse_reverse]
      rw [this, Nat.zero_mul, Nat.zero_add]
  · rw [if_neg hg]
    have hb : bs = [] := List.eq_nil_of_length_eq_zero (by omega)
    subst hb
    obtain ⟨x, rfl⟩ : ∃ x, luts = [x] := by
      apply List.length_eq_one_iff.1; simpa using hn
    have hxl := hx x (by simp)
    have hb : (bodyOf N out).length = N := by
      have : N ≤ (k + 1) * N := Nat.le_mul_of_pos_left _ (by omega)
      have h2 : out.length = (k + 1) * N := ho
      rw [bodyOf, List.length_drop, h2]; omega
    have he : fillTrivialGlwe N out [x].flatten = List.replicate (k * N) 0#w ++ x := by
      rw [fillTrivialGlwe, List.flatten_cons, List.flatten_nil, List.append_nil]
      congr 1
      · rw [List.map_const', maskOf, List.length_take]
        congr 1
        have h2 : out.length = (k + 1) * N := ho
        rw [h2, show (k + 1) * N = k * N + N by ring]; omega
      · apply List.ext_getElem?
        intro i
        rw [zipUpdate_getElem?]
        by_cases hi : i < N
        · rw [List.getElem?_eq_getElem (by omega : i < (bodyOf N out).length), List.getElem?_eq_getElem (by omega : i < x.length)]
        · rw [List.getElem?_eq_none (by omega : (bodyOf N out).length ≤ i), List.getElem?_eq_none (by omega : x.length ≤ i)]
    obtain ⟨t1, t2⟩ := C31_trivial_accumulator N k hN key x hxl
    refine ⟨_, rfl, by rw [he]; exact t1, 0, Poly.small_zero N _ (by simp), ?_⟩
    rw [he, t2]; simp [indexOf]

/-- C43: on `2^r` lookup tables and GGSW encryptions of `r` bits, the CMUX tree outputs a ciphertext of the
table whose index is spelled by the bits, the first one being the most significant, up to `r` times the
error of a CMUX. -/
theorem C43_cmux_tree (bld : Build) (T : Transform w) (N k b l : Nat) (hN : 0 < N) (D B S E : Int)
    (hT : T.Accurate N (l * (k + 1)) D B) (hD : 2 ^ (b - 1) ≤ D) (h : ValidParams w b l) (hS0 : 0 ≤ S)
    (key : List (BitVec w)) (hk : KeyFits N k key) (hS : KeyBound S key) (ggsws : List (List (BitVec w)))
    (bits : List Bool) (hg : BitsEnc N k b l key ggsws bits E) (out : List (BitVec w)) (ho : CtFits N k out)
    (luts : List (List (BitVec w))) (hn : luts.length = 2 ^ bits.length) (hx : ∀ x ∈ luts, x.length = N) :
    ∃ r, cmuxTree bld (fun g o c => externalProduct T N k b l o g c) N k out luts (ggsws.map (convert T N)) = some r ∧
      CtFits N k r ∧ ∃ e : Rq (BitVec w) N, Small N (bits.length * epBound w N k b l S E B 1) e ∧
      glwePhase N k key r = toRq N (luts.getD (indexOf bits) []) + e :=
  cmuxTree_spec bld _ N k hN key _ _ bits (by rw [List.length_map, hg.1])
    (cmuxOk_of_enc T N k b l hN D B S E hT hD h hS0 key hk hS ggsws bits hg) out ho luts hn hx

/-- C43: with another number of tables, a debug build panics. -/
theorem C43_wrong_count (ep : G → List (BitVec w) → List (BitVec w) → List (BitVec w)) (N k : Nat)
    (out : List (BitVec w)) (luts : List (List (BitVec w))) (gs : List G) (h : luts.length ≠ 2 ^ gs.length) :
    cmuxTree .debug ep N k out luts gs = none := by
  rw [cmuxTree, if_pos ⟨rfl, h⟩]

end Verif.Wop
