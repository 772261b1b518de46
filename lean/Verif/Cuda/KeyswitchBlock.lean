import Verif.Cuda.KeyswitchValue
import Verif.Cuda.Props2
import Verif.Util.Lists
/-
The result of a block of the keyswitch kernel as a ciphertext, and the schedule that loses the body.
-/
namespace Verif.Cuda
open Lwe (ksDigit keyswitchCiphertext)

variable {w : Nat}

/-- The value of a coefficient when the input and the key are initialised. -/
theorem coeff_value (P : KsArgs w) (hv : Decomp.ValidParams w P.b P.l) (idx : Nat) (hidx : idx ≤ P.dimOut)
    (ksk ct : List (BitVec w)) (hk : P.ksk = ksk.map some)
    (hkl : ksk.length = P.dimIn * (P.l * (P.dimOut + 1)))
    (hin : ∀ i, i < P.dimIn → inWord P i = some (ct.getD i 0)) (v : BitVec w) :
    coeff P idx (some v) = some (v - ∑ i ∈ Finset.range P.dimIn, ∑ j ∈ Finset.range P.l,
      ksk.getD ((i * P.l + (P.l - 1 - j)) * (P.dimOut + 1) + idx) 0 * ksDigit P.b P.l (ct.getD i 0) j) := by
  have hword : ∀ i j, i < P.dimIn → j < P.l → kskWord P (kskIndex P i j idx) =
      some (ksk.getD ((i * P.l + (P.l - 1 - j)) * (P.dimOut + 1) + idx) 0) := by
    intro i j hi hj
    have e : kskIndex P i j idx = (i * P.l + (P.l - 1 - j)) * (P.dimOut + 1) + idx := by
      unfold kskIndex
      rw [Nat.add_mul, show P.l - j - 1 = P.l - 1 - j by omega]
    have hlt : (i * P.l + (P.l - 1 - j)) * (P.dimOut + 1) + idx < ksk.length := by
      have h1 : (i + 1) * (P.l * (P.dimOut + 1)) ≤ ksk.length := by
        rw [hkl]; exact Nat.mul_le_mul_right _ hi
      have h2 : (i * P.l + (P.l - 1 - j) + 1) * (P.dimOut + 1) ≤ (i + 1) * (P.l * (P.dimOut + 1)) := by
        rw [← Nat.mul_assoc]
        apply Nat.mul_le_mul_right
        rw [Nat.add_mul, Nat.one_mul]
        omega
      rw [Nat.add_mul _ 1, Nat.one_mul] at h2
      omega
    unfold kskWord
    rw [e, hk, List.getElem?_map, List.getElem?_eq_getElem hlt, List.getD_eq_getElem?_getD,
      List.getElem?_eq_getElem hlt]
    rfl
  have inner : ∀ i, i < P.dimIn → ∀ n, n ≤ P.l → ∀ v : BitVec w,
      (List.range n).foldl (fun c j => cellEff P idx c (.sub i j idx)) (some v) =
      some (v - ∑ j ∈ Finset.range n,
        ksk.getD ((i * P.l + (P.l - 1 - j)) * (P.dimOut + 1) + idx) 0 * ksDigit P.b P.l (ct.getD i 0) j) := by
    intro i hi n
    induction n with
    | zero => intro _ v; simp
    | succ n ih =>
      intro hn v
      rw [List.range_succ, List.foldl_append, ih (by omega) v, Finset.sum_range_succ, List.foldl_cons,
        List.foldl_nil]
      simp only [cellEff, if_true, Option.bind_some]
      rw [hword i n hi (by omega), hin i hi]
      simp only [Option.bind_some, Option.map_some]
      rw [gpuDigit_eq P.b P.l hv _ n (by omega), sub_sub]
  unfold coeff
  have outer : ∀ n, n ≤ P.dimIn → (List.range n).foldl (fun c i => coeffStep P idx i c) (some v) =
      some (v - ∑ i ∈ Finset.range n, ∑ j ∈ Finset.range P.l,
        ksk.getD ((i * P.l + (P.l - 1 - j)) * (P.dimOut + 1) + idx) 0 * ksDigit P.b P.l (ct.getD i 0) j) := by
    intro n
    induction n with
    | zero => intro _; simp
    | succ n ih =>
      intro hn
      rw [List.range_succ, List.foldl_append, ih (by omega), List.foldl_cons, List.foldl_nil, coeffStep,
        inner n (by omega) P.l (le_refl _), Finset.sum_range_succ, sub_sub]
  exact outer _ (le_refl _)

/-- The schedule that runs the first segment of thread 0. -/
theorem run_first (P : KsArgs w) (hf : KsFits P) : ∀ (todo : List Instr) (st : Block w) (r : Option (Option (BitVec w))),
    Inv P st → st.threads[0]? = some ⟨0, todo, r⟩ →
    ∃ st' r', steps P (List.replicate todo.length 0) st = .ok st' ∧ Inv P st' ∧
      st'.threads[0]? = some ⟨0, [], r'⟩ ∧ ∀ u, u ≠ 0 → st'.threads[u]? = st.threads[u]? := by
  intro todo
  induction todo with
  | nil => intro st r hi h; exact ⟨st, r, rfl, hi, h, fun _ _ => rfl⟩
  | cons x rest ih =>
    intro st r hi h
    obtain ⟨st1, e1, hm⟩ := step_move P hf st hi 0
    have hi1 := move_inv P hf st st1 0 hi hm
    have hx : x ∈ segment P 0 0 := (hi.suffix 0 _ h).2.subset List.mem_cons_self
    have hth : ∃ r', st1.threads = st.threads.set 0 ⟨0, rest, r'⟩ := by
      unfold step at e1
      rw [h] at e1
      simp only at e1
      rcases mem_segment P 0 _ (by norm_num) x hx with ⟨k, rfl, _⟩ | ⟨rfl, _⟩ | ⟨i, j, k, rfl, h1, _⟩ |
        ⟨k, rfl, h1, _⟩
      · simp only at e1
        cases hw : DVec.write st.shared k (some 0#w) with
        | ok s =>
          rw [hw] at e1
          exact ⟨none, by rw [← Out.ok.inj e1]⟩
        | panic => rw [hw] at e1; cases e1
        | exit => rw [hw] at e1; cases e1
        | overrun => rw [hw] at e1; cases e1
      · simp only at e1
        cases hr : DVec.read P.input (P.blk * (P.dimIn + 1) + P.dimIn) with
        | ok v =>
          rw [hr, Out.bind_ok] at e1
          cases hw : DVec.write st.shared P.dimOut v with
          | ok s =>
            rw [hw] at e1
            exact ⟨none, by rw [← Out.ok.inj e1]⟩
          | panic => rw [hw] at e1; cases e1
          | exit => rw [hw] at e1; cases e1
          | overrun => rw [hw] at e1; cases e1
        | panic => rw [hr] at e1; cases e1
        | exit => rw [hr] at e1; cases e1
        | overrun => rw [hr] at e1; cases e1
      · omega
      · have := hf.dim; omega
    obtain ⟨r', hth⟩ := hth
    have h0 : 0 < st.threads.length := by rw [hi.threads]; norm_num
    obtain ⟨st2, r2, e2, hi2, k1, k2⟩ := ih st1 r' hi1 (by rw [hth, List.getElem?_set_self h0])
    refine ⟨st2, r2, ?_, hi2, k1, ?_⟩
    · show steps P (0 :: List.replicate rest.length 0) st = _
      have := steps_append P [0] (List.replicate rest.length 0) st st1 e1
      rw [← e2, ← this]; rfl
    · intro u hu
      rw [k2 u hu, hth, List.getElem?_set_ne (by omega)]

/-- The schedule on which thread 0 writes the body before another thread zeroes its cell. -/
def bodyFirst (P : KsArgs w) : List Nat := List.replicate (segment P 0 0).length 0

theorem bodyFirst_lost (P : KsArgs w) (hf : KsFits P) (out : DVec (BitVec w))
    (ho : out.length = P.dimOut + 1) (hne : P.dimOut % ksThreads ≠ 0) :
    ∃ st1, steps P (bodyFirst P) (ksStart P out) = .ok st1 ∧ After P [] st1 := by
  have hi0 := start_inv P out ho
  have hs0 : (ksStart P out).threads[0]? = some ⟨0, segment P 0 0, none⟩ := by
    obtain ⟨th, h⟩ : ∃ th, (ksStart P out).threads[0]? = some th :=
      ⟨_, List.getElem?_eq_getElem (by rw [hi0.threads]; norm_num)⟩
    rw [h, start_threads P out 0 th h]
  obtain ⟨st1, r', e1, hi1, k1, k2⟩ := run_first P hf _ _ _ hi0 hs0
  obtain ⟨st1', e1', _, hb⟩ := steps_ok P hf (fun st => P.dimOut % ksThreads ≠ 0 → BodyCell P st)
    (fun st st' t hi hq hm h => move_body P hf st st' t hi hm h (hq h)) _ (ksStart P out) hi0
    (fun _ => Or.inl (start_before P out))
  have e := Out.ok.inj (e1.symm.trans e1')
  subst e
  refine ⟨st1, e1, ?_⟩
  have hsome : ∃ o, st1.threads[P.dimOut % ksThreads]? = some o :=
    ⟨_, List.getElem?_eq_getElem (by rw [hi1.threads]; exact owner_lt _)⟩
  obtain ⟨o, ho1⟩ := hsome
  have ho2 : o = ⟨0, segment P (P.dimOut % ksThreads) 0, none⟩ := by
    have := k2 _ hne
    rw [ho1] at this
    exact start_threads P out _ o this.symm
  have hbody : Instr.body ∈ hist P 0 ⟨0, [], r'⟩ := by
    unfold hist
    simp only [List.length_nil, Nat.sub_zero, List.take_length, List.range_zero, List.flatMap_nil,
      List.nil_append]
    rw [segment_zero P hf.dim, if_pos rfl]
    simp
  rcases hb hne with hb | ⟨h1, _, ha⟩
  · exact absurd hbody (hb o _ ho1 k1).1
  · obtain ⟨_, h2, hh, _⟩ := ha o _ ho1 k1
    rw [ho2, hist_start] at hh
    have : h1 = [] := (List.append_eq_nil_iff.1 hh.symm).1
    subst this
    exact ha

/-- The input of the keyswitch with its body replaced by 0. -/
def withoutBody (ct : List (BitVec w)) : List (BitVec w) := ct.dropLast ++ [0#w]

/-- The result of a block: the keyswitch of its ciphertext, or of this ciphertext without its body. -/
theorem runBlock_ct (P : KsArgs w) (hf : KsFits P) (hv : Decomp.ValidParams w P.b P.l)
    (ksk ct : List (BitVec w)) (hk : P.ksk = ksk.map some)
    (hkl : ksk.length = P.dimIn * (P.l * (P.dimOut + 1))) (hct : ct.length = P.dimIn + 1)
    (hin : ∀ i, i ≤ P.dimIn → inWord P i = some (ct.getD i 0)) (sched : List Nat)
    (out : DVec (BitVec w)) (ho : out.length = P.dimOut + 1) :
    ∃ st r, runBlock P sched out = .ok st ∧ st.out = r.map some ∧ r.length = P.dimOut + 1 ∧
      ((∀ after : List (BitVec w), after.length = P.dimOut + 1 →
          keyswitchCiphertext P.b P.l (P.dimOut + 1) ksk after ct = some r) ∨
        P.dimOut % 128 ≠ 0 ∧ ∀ after : List (BitVec w), after.length = P.dimOut + 1 →
          keyswitchCiphertext P.b P.l (P.dimOut + 1) ksk after (withoutBody ct) = some r) ∧
      (sched = bodyFirst P → P.dimOut % 128 ≠ 0 → ∀ after : List (BitVec w), after.length = P.dimOut + 1 →
          keyswitchCiphertext P.b P.l (P.dimOut + 1) ksk after (withoutBody ct) = some r) := by
  obtain ⟨st, body, e, hol, hbody, hcell, hlost⟩ := runBlock_spec P hf sched out ho
  have hne : ct ≠ [] := by intro h; rw [h] at hct; simp at hct
  have hsplit : ct = ct.dropLast ++ [ct.getD P.dimIn 0] := by
    have hlast : ct.getLast hne = ct.getD P.dimIn 0 := by
      rw [List.getLast_eq_getElem, List.getD_eq_getElem?_getD, List.getElem?_eq_getElem (by omega)]
      simp [hct]
    rw [← hlast]
    exact (List.dropLast_append_getLast hne).symm
  have hdl : ct.dropLast.length = P.dimIn := by rw [List.length_dropLast, hct]; omega
  have hdrop : ∀ i, i < P.dimIn → ct.dropLast.getD i 0 = ct.getD i 0 := by
    intro i hi
    have := congrArg (fun l : List (BitVec w) => l.getD i 0) hsplit
    rw [this, List.getD_eq_getElem?_getD, List.getD_eq_getElem?_getD,
      List.getElem?_append_left (by omega)]
  obtain ⟨bv, hbv⟩ : ∃ bv, body = some bv := by
    rcases hbody with h | ⟨_, h⟩
    · exact ⟨_, by rw [h, hin _ (le_refl _)]⟩
    · exact ⟨_, h⟩
  -- the keyswitch with the body `bv`
  have key : ∀ after : List (BitVec w), after.length = P.dimOut + 1 →
      ∃ r, keyswitchCiphertext P.b P.l (P.dimOut + 1) ksk after (ct.dropLast ++ [bv]) = some r ∧
        r.length = P.dimOut + 1 ∧ st.out = r.map some := by
    intro after ha
    obtain ⟨r, h1, h2, h3⟩ := keyswitch_coeff P.b P.l hv.level P.dimIn P.dimOut ksk after ct.dropLast bv hkl
      ha hdl
    refine ⟨r, h1, h2, ?_⟩
    apply List.ext_getElem?
    intro idx
    by_cases hidx : idx ≤ P.dimOut
    · rw [hcell idx hidx, List.getElem?_map, getElem?_getD r idx (by omega), h3 idx hidx]
      have : (if idx = P.dimOut then body else some 0#w) = some (if idx = P.dimOut then bv else 0) := by
        split
        · exact hbv
        · rfl
      rw [this, coeff_value P hv idx hidx ksk ct hk hkl (fun i hi => hin i (by omega))]
      simp only [Option.map_some]
      congr 3
      apply Finset.sum_congr rfl
      intro i hi
      rw [hdrop i (Finset.mem_range.1 hi)]
    · rw [List.getElem?_eq_none (by omega), List.getElem?_eq_none (by rw [List.length_map]; omega)]
  obtain ⟨r, hr1, hr2, hr3⟩ := key (List.replicate (P.dimOut + 1) 0) (by simp)
  have hall : ∀ after : List (BitVec w), after.length = P.dimOut + 1 →
      keyswitchCiphertext P.b P.l (P.dimOut + 1) ksk after (ct.dropLast ++ [bv]) = some r := by
    intro after ha
    obtain ⟨r', h1, _, h3⟩ := key after ha
    have : r' = r := by
      have := h3.symm.trans hr3
      exact List.map_injective_iff.2 (Option.some_injective _) this
    rw [h1, this]
  refine ⟨st, r, e, hr3, hr2, ?_, ?_⟩
  · rcases hbody with h | ⟨h1, h⟩
    · left
      have : bv = ct.getD P.dimIn 0 := by
        rw [hbv, hin _ (le_refl _)] at h; exact Option.some.inj h
      rw [this, ← hsplit] at hall
      exact hall
    · right
      have : bv = 0#w := by rw [hbv] at h; exact Option.some.inj h
      rw [this] at hall
      exact ⟨h1, hall⟩
  · intro hs h1
    obtain ⟨st1, e1, ha⟩ := bodyFirst_lost P hf out ho h1
    rw [← hs] at e1
    have := hlost st1 e1 h1 ha
    have : bv = 0#w := by rw [hbv] at this; exact Option.some.inj this
    rw [this] at hall
    exact hall

end Verif.Cuda
