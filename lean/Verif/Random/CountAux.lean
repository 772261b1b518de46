import Verif.Random.CountGauss
import Verif.Random.Odd
import Verif.Random.GaussProps
import Verif.Session.Model
/- Lemmas for C110: ternary values, secret keys, signs of the noise. -/
namespace Verif.Random
open Verif.Csprng (Build)
open Verif.Random.Gauss Verif.Float

theorem prod_const {A : Type} (f : A → Nat) (c : Nat) : ∀ as : List A, (∀ a ∈ as, f a = c) → (as.map f).prod = c ^ as.length
  | [], _ => by simp
  | a :: as, h => by
    rw [List.map_cons, List.prod_cons, h a (by simp), prod_const f c as fun b hb => h b (by simp [hb]), List.length_cons,
      pow_succ, Nat.mul_comm]

def ltern (w : Nat) : LSamp (BitVec w)
  | [] => none
  | b :: bs =>
    if b &&& 3#8 = 0#8 then some (0#w, bs)
    else if b &&& 3#8 = 1#8 then some (1#w, bs)
    else if b &&& 3#8 = 2#8 then some (0#w - 1#w, bs)
    else ltern w bs

theorem sim_ternLoop (w : Nat) : ∀ (bs : List (BitVec 8)) (g : Src) (fuel : Nat), Has g bs → bs.length < fuel →
    (ltern w bs = none ∧ uniformTernaryLoop w fuel g = none) ∨
      ∃ a r g', ltern w bs = some (a, r) ∧ uniformTernaryLoop w fuel g = some (a, g') ∧ Has g' r
  | _, _, 0, _, h => by omega
  | [], g, fuel + 1, h, _ => by
    left
    rcases sim_next g [] h with ⟨-, h2⟩ | ⟨a, r, g', h1, -⟩
    · exact ⟨rfl, by rw [uniformTernaryLoop, h2]⟩
    · cases h1
  | b :: bs, g, fuel + 1, h, hf => by
    rcases sim_next g (b :: bs) h with ⟨h1, -⟩ | ⟨a, r, g', h1, h2, h3⟩
    · cases h1
    · simp only [lnext, Option.some.injEq, Prod.mk.injEq] at h1
      obtain ⟨rfl, rfl⟩ := h1
      rw [ltern, uniformTernaryLoop, h2]
      simp only
      split
      · right; exact ⟨_, _, g', rfl, rfl, h3⟩
      · split
        · right; exact ⟨_, _, g', rfl, rfl, h3⟩
        · split
          · right; exact ⟨_, _, g', rfl, rfl, h3⟩
          · exact sim_ternLoop w bs g' fuel h3 (by simp only [List.length_cons] at hf; omega)

theorem sim_tern (w : Nat) : Sim (uniformTernary w) (ltern w) := by
  intro g bs h
  have := h.1
  exact sim_ternLoop w bs g (g.bound - g.pos + 1) h (by omega)

theorem sum_bytes4 (F : Nat → Nat) : ∑ b : BitVec 8, F (b.toNat % 4) = 64 * F 0 + 64 * F 1 + 64 * F 2 + 64 * F 3 := by
  rw [sum_bitVec 8 fun n => F (n % 4), show 2 ^ 8 = 64 * 4 from rfl, sum_range_mul]
  have : ∀ i ∈ Finset.range 64, ∑ j ∈ Finset.range 4, F ((j + 4 * i) % 4) = F 0 + F 1 + F 2 + F 3 := by
    intro i _
    simp [Finset.sum_range_succ, Nat.add_mod]
  rw [Finset.sum_congr rfl this]
  simp
  ring

theorem lways_tern (w : Nat) (hw : 2 ≤ w) : ∀ (L n : Nat) (as : List (BitVec w)), as.length = n →
    (∀ a ∈ as, a = 0 ∨ a = 1#w ∨ a = -1#w) → lways (lrep n (ltern w)) L as = ternaryWays n L
  | L, 0, as, hl, _ => by
    obtain rfl := List.length_eq_zero_iff.1 hl
    have : Fintype.card (BitVec 8) = 256 := by
      have := sum_bitVec 8 (fun _ => 1)
      simpa using this
    rw [lways, ternaryWays]
    simp [lrep, this]
  | 0, n + 1, as, _, _ => by
    rw [lways, Fintype.sum_unique, ternaryWays]
    simp [lrep, ltern]
  | L + 1, n + 1, [], hl, _ => by simp at hl
  | L + 1, n + 1, a :: as, hl, ha => by
    simp only [List.length_cons, Nat.add_right_cancel_iff] at hl
    have i1 := lways_tern w hw L n as hl fun b hb => ha b (by simp [hb])
    have i2 := lways_tern w hw L (n + 1) (a :: as) (by simp [hl]) ha
    rw [lways, sum_cons L fun bs => if (lrep (n + 1) (ltern w) bs).map Prod.fst = some (a :: as) then 1 else 0]
    -- the value of a byte
    let val : Nat → Option (BitVec w) := fun r => if r = 0 then some 0#w else if r = 1 then some 1#w else
      if r = 2 then some (0#w - 1#w) else none
    obtain ⟨F, hF⟩ : ∃ F : Nat → Nat, F = fun r => match val r with
      | some v => if v = a then ternaryWays n L else 0
      | none => ternaryWays (n + 1) L := ⟨_, rfl⟩
    have hb : ∀ b : BitVec 8, (∑ y : Fin L → BitVec 8,
        if (lrep (n + 1) (ltern w) (b :: List.ofFn y)).map Prod.fst = some (a :: as) then 1 else 0) =
        F (b.toNat % 4) := by
      intro b
      rw [hF]
      have h4 : ∀ b : BitVec 8, (b &&& 3#8 = 0#8 ↔ b.toNat % 4 = 0) ∧ (b &&& 3#8 = 1#8 ↔ b.toNat % 4 = 1) ∧
          (b &&& 3#8 = 2#8 ↔ b.toNat % 4 = 2) := by decide
      obtain ⟨h0, h1, h2⟩ := h4 b
      have key : ∀ y : List (BitVec 8), ltern w (b :: y) =
          match val (b.toNat % 4) with
          | some v => some (v, y)
          | none => ltern w y := by
        intro y
        simp only [ltern, h0, h1, h2, val]
        split
        · rfl
        · split
          · rfl
          · split <;> rfl
      simp only [lrep, key]
      cases hval : val (b.toNat % 4) with
      | some v =>
        simp only
        by_cases hva : v = a
        · rw [if_pos hva, ← i1, lways]
          refine Finset.sum_congr rfl fun y _ => ?_
          rcases Option.eq_none_or_eq_some (lrep n (ltern w) (List.ofFn y)) with hr | ⟨q, hr⟩
          · simp [hr]
          · simp [hr, hva]
        · rw [if_neg hva]
          refine Finset.sum_eq_zero fun y _ => if_neg ?_
          cases lrep n (ltern w) (List.ofFn y) with
          | none => simp
          | some q => simp [hva]
      | none =>
        simp only
        rw [← i2, lways]
        rfl
    rw [Finset.sum_congr rfl fun b _ => hb b]
    rw [sum_bytes4, hF]
    have hlt : 1 < 2 ^ w := Nat.one_lt_two_pow (by omega)
    have h10 : 1#w ≠ 0#w := by
      intro h
      have := congrArg BitVec.toNat h
      simp only [BitVec.toNat_ofNat] at this
      rw [Nat.mod_eq_of_lt hlt, Nat.zero_mod] at this
      omega
    have h11 : 1#w ≠ -1#w := by
      intro h
      have := congrArg BitVec.toNat h
      simp only [BitVec.toNat_neg, BitVec.toNat_ofNat] at this
      have h4 : 2 ^ 2 ≤ 2 ^ w := Nat.pow_le_pow_right (by omega) hw
      rw [Nat.mod_eq_of_lt hlt, Nat.mod_eq_of_lt (by omega)] at this
      omega
    have h01 : 0#w ≠ -1#w := by
      intro h
      have := congrArg BitVec.toNat h
      simp only [BitVec.toNat_neg, BitVec.toNat_ofNat] at this
      rw [Nat.mod_eq_of_lt hlt, Nat.zero_mod, Nat.mod_eq_of_lt (by omega)] at this
      omega
    have e0 : 0#w - 1#w = -1#w := by simp
    rw [ternaryWays]
    simp only [val, e0]
    rcases ha a (by simp) with rfl | rfl | rfl
    · simp [h10, Ne.symm h01]
    · simp [Ne.symm h10, Ne.symm h11]
    · simp [h01, h11]

theorem card_ways {A : Type} [DecidableEq A] (s : Samp A) (L : Nat) (a : A) (P : (Fin L → BitVec 8) → Prop)
    (h : ∀ bs, P bs ↔ result s (List.ofFn bs) = some a) : Nat.card {bs // P bs} = ways s L a := by
  rw [ways, ← Fintype.card_subtype, ← Nat.card_eq_fintype_card]
  exact Nat.card_congr (Equiv.subtypeEquivRight h)

theorem key_iff {w : Nat} (s : Samp (List (BitVec w))) (bs : List (BitVec 8)) (key : List (BitVec w)) :
    (∃ g, ((s (srcOf bs)).map fun r => (Session.Out.key r.1, r.2)) = some (Session.Out.key key, g)) ↔
      result s bs = some key := by
  unfold result
  cases s (srcOf bs) with
  | none => simp
  | some r =>
    simp only [Option.map_some, Option.some.injEq, Prod.mk.injEq]
    constructor
    · rintro ⟨g, h, -⟩
      injection h with _ h
    · intro h
      exact ⟨_, by rw [h], rfl⟩

theorem signSym {ln : F64 → F64} (hln : LnAccurate ln) {w : ℕ} (hw0 : 1 ≤ w) (hw : w ≤ 128) {d : Dispersion}
    (hd : d.Valid) (hb : (noiseBound w d : ℤ) < 2 ^ (w - 1) - 1) : SignSym (noiseFn w ln d) := by
  have ha : ∀ x y, (noiseFn w ln d).accept x y = accept x y := fun _ _ => rfl
  have a1 : ∀ a x y, accept (sgn a x) y = accept x y := by
    intro a x y; cases a
    · rfl
    · exact accept_neg_left x y
  have a2 : ∀ b x y, accept x (sgn b y) = accept x y := by
    intro b x y; cases b
    · rfl
    · exact accept_neg_right x y
  constructor
  · intro a b x y
    rw [ha, ha, a1, a2]
  · intro a b x y h
    have h2 : (noiseFn w ln d).value x (sgn b y) = (((noiseFn w ln d).value x y).1, sgn b ((noiseFn w ln d).value x y).2) := by
      cases b
      · rfl
      · exact value_neg_right hln hw0 hw hd hb x y h
    cases a
    · exact h2
    · have := value_neg_left hln hw0 hw hd hb x (sgn b y) (by rw [ha, a2]; exact h)
      rw [h2] at this
      exact this

theorem sum_zero {A : Type} [DecidableEq A] (s : Samp A) (L : Nat) (T : A → A) (hT : ∀ a, T (T a) = a)
    (hw : ∀ a, ways s L (T a) = ways s L a) (F : A → ℤ) (hF : ∀ a, ways s L a ≠ 0 → F (T a) = -F a) :
    ∑ bs : Fin L → BitVec 8, ((result s (List.ofFn bs)).map F).getD 0 = 0 := by
  classical
  have h1 : ∀ G : A → ℤ, ∑ bs : Fin L → BitVec 8, ((result s (List.ofFn bs)).map G).getD 0 =
      ∑ a ∈ (Finset.univ.image fun bs : Fin L → BitVec 8 => result s (List.ofFn bs)).eraseNone, (ways s L a : ℤ) * G a := by
    intro G
    have h2 : ∀ bs : Fin L → BitVec 8, ((result s (List.ofFn bs)).map G).getD 0 =
        ∑ a ∈ (Finset.univ.image fun bs : Fin L → BitVec 8 => result s (List.ofFn bs)).eraseNone,
          (if result s (List.ofFn bs) = some a then 1 else 0) * G a := by
      intro bs
      cases h : result s (List.ofFn bs) with
      | none => simp
      | some a =>
        rw [Finset.sum_eq_single a]
        · simp
        · intro b _ hne
          rw [if_neg (by simpa using Ne.symm hne), zero_mul]
        · intro hn
          exact absurd (by simpa using ⟨bs, h⟩) hn
    rw [Finset.sum_congr rfl fun bs _ => h2 bs, Finset.sum_comm]
    refine Finset.sum_congr rfl fun a _ => ?_
    rw [← Finset.sum_mul, ways, Finset.card_filter]
    push_cast
    rfl
  have hmem : ∀ a, a ∈ (Finset.univ.image fun bs : Fin L → BitVec 8 => result s (List.ofFn bs)).eraseNone ↔ ways s L a ≠ 0 := by
    intro a
    rw [Finset.mem_eraseNone, ways, Finset.card_ne_zero]
    constructor
    · intro h
      obtain ⟨bs, -, h⟩ := Finset.mem_image.1 h
      exact ⟨bs, by simpa using h⟩
    · rintro ⟨bs, h⟩
      exact Finset.mem_image.2 ⟨bs, by simp, by simpa using h⟩
  rw [h1]
  have h3 : ∑ a ∈ (Finset.univ.image fun bs : Fin L → BitVec 8 => result s (List.ofFn bs)).eraseNone, (ways s L a : ℤ) * F a =
      ∑ a ∈ (Finset.univ.image fun bs : Fin L → BitVec 8 => result s (List.ofFn bs)).eraseNone, -((ways s L a : ℤ) * F a) := by
    refine Finset.sum_bij' (fun a _ => T a) (fun a _ => T a) ?_ ?_ ?_ ?_ ?_
    · intro a ha; rw [hmem] at ha ⊢; rwa [hw]
    · intro a ha; rw [hmem] at ha ⊢; rwa [hw]
    · intro a _; exact hT a
    · intro a _; exact hT a
    · intro a ha
      rw [hw, hF a ((hmem a).1 ha)]
      ring
  rw [Finset.sum_neg_distrib] at h3
  linarith

theorem toInt_neg_of_small {w : Nat} (e : BitVec w) (B : Nat) (h : |e.toInt| ≤ B) (hB : (B : ℤ) < 2 ^ (w - 1) - 1) :
    (-e).toInt = -e.toInt := by
  have : e ≠ BitVec.intMin w := by
    rintro rfl
    rw [BitVec.toInt_intMin] at h
    rcases Nat.eq_zero_or_pos w with rfl | hw
    · simp at hB; omega
    · have e1 : 2 ^ (w - 1) < 2 ^ w := Nat.pow_lt_pow_right (by omega) (by omega)
      rw [Nat.mod_eq_of_lt e1] at h
      push_cast at h
      rw [abs_neg, abs_of_nonneg (by positivity)] at h
      omega
  rw [BitVec.toInt_neg_of_ne_intMin this]

theorem flip_get {w : Nat} (σ : Nat → Bool) (es : List (BitVec w)) (i : Nat) :
    (flip σ es).getD i 0 = if σ i then -(es.getD i 0) else es.getD i 0 := by
  unfold flip
  rw [List.getD_eq_getElem?_getD, List.getD_eq_getElem?_getD, List.getElem?_mapIdx]
  cases es[i]? <;> simp

end Verif.Random
