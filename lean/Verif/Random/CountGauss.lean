import Verif.Random.CountWords
import Mathlib.Data.List.Forall2
import Mathlib.Logic.Equiv.Basic
/-
Counting the strings of bytes that give a noise, for samplers that are odd in each of the two words they read.
-/
namespace Verif.Random
variable {w : Nat}

/-! ### The sampler on lists -/

def lgaussLoop (f : GaussianFn w) : Nat → LSamp (BitVec w × BitVec w)
  | 0, _ => none
  | fuel + 1, bs =>
    match luniform 64 bs with
    | none => none
    | some (u, r) =>
      match luniform 64 r with
      | none => none
      | some (v, r') => if f.accept u v then some (f.value u v, r') else lgaussLoop f fuel r'

theorem sim_gaussLoop (f : GaussianFn w) : ∀ fuel, Sim (gaussianLoop f fuel) (lgaussLoop f fuel)
  | 0, _, _, _ => Or.inl ⟨rfl, rfl⟩
  | fuel + 1, g, bs, h => by
    rcases sim_uniform 64 g bs h with ⟨h1, h2⟩ | ⟨u, r, g', h1, h2, h3⟩
    · left; exact ⟨by rw [lgaussLoop, h1], by rw [gaussianLoop, h2]⟩
    · rcases sim_uniform 64 g' r h3 with ⟨k1, k2⟩ | ⟨v, r', g'', k1, k2, k3⟩
      · left; exact ⟨by rw [lgaussLoop, h1]; simp only [k1], by rw [gaussianLoop, h2]; simp only [k2]⟩
      · rw [lgaussLoop, h1, gaussianLoop, h2]
        simp only [k1, k2]
        by_cases ha : f.accept u v = true
        · right; exact ⟨_, r', g'', by rw [if_pos ha], by rw [if_pos ha], k3⟩
        · simp only [ha]
          exact sim_gaussLoop f fuel g'' r' k3

def lgauss (f : GaussianFn w) : LSamp (BitVec w × BitVec w) := fun bs => lgaussLoop f (bs.length + 1) bs

theorem sim_gauss (f : GaussianFn w) : Sim (gaussianPair f) (lgauss f) := by
  intro g bs h
  have e : g.bound - g.pos + 1 = bs.length + 1 := by have := h.1; omega
  have := sim_gaussLoop f (bs.length + 1) g bs h
  rw [gaussianPair, lgauss, e]
  exact this

theorem luniform_length {bs r : List (BitVec 8)} {u : BitVec 64} (h : luniform 64 bs = some (u, r)) :
    r.length + 8 = bs.length := by
  rw [fixed_uniform] at h
  split at h
  · simp only [Option.some.injEq, Prod.mk.injEq] at h
    rw [← h.2, List.length_drop]
    omega
  · cases h

theorem lgaussLoop_fuel (f : GaussianFn w) : ∀ (a b : Nat) (bs : List (BitVec 8)), bs.length < a → bs.length < b →
    lgaussLoop f a bs = lgaussLoop f b bs
  | 0, _, _, h, _ => by omega
  | _, 0, _, _, h => by omega
  | a + 1, b + 1, bs, ha, hb => by
    rw [lgaussLoop, lgaussLoop]
    split
    · rfl
    · rename_i u r h1
      split
      · rfl
      · rename_i v r' h2
        have l1 := luniform_length h1
        have l2 := luniform_length h2
        split
        · rfl
        · exact lgaussLoop_fuel f a b r' (by omega) (by omega)

/-- The word written in 8 bytes. -/
def word (x : Fin 8 → BitVec 8) : BitVec 64 := BitVec.ofNat 64 (fromLE (List.ofFn x))

theorem luniform_append (x : Fin 8 → BitVec 8) (r : List (BitVec 8)) :
    luniform 64 (List.ofFn x ++ r) = some (word x, r) := by
  have hl : (List.ofFn x).length = 8 := by simp
  rw [fixed_uniform, if_pos (by simp)]
  have e1 : (List.ofFn x ++ r).take (64 / 8) = List.ofFn x := by
    rw [show 64 / 8 = (List.ofFn x).length by rw [hl], List.take_left]
  have e2 : (List.ofFn x ++ r).drop (64 / 8) = r := by
    rw [show 64 / 8 = (List.ofFn x).length by rw [hl], List.drop_left]
  rw [e1, e2]; rfl

theorem lgauss_append (f : GaussianFn w) (x y : Fin 8 → BitVec 8) (r : List (BitVec 8)) :
    lgauss f (List.ofFn x ++ (List.ofFn y ++ r)) =
      if f.accept (word x) (word y) then some (f.value (word x) (word y), r) else lgauss f r := by
  rw [lgauss, lgaussLoop, luniform_append]
  simp only [luniform_append]
  split
  · rfl
  · rw [lgauss]; exact lgaussLoop_fuel f _ _ r (by simp only [List.length_append, List.length_ofFn]; omega) (by omega)

theorem lgauss_short (f : GaussianFn w) (bs : List (BitVec 8)) (h : bs.length < 16) : lgauss f bs = none := by
  rw [lgauss, lgaussLoop]
  split
  · rfl
  · rename_i u r h1
    have l1 := luniform_length h1
    rw [fixed_uniform, if_neg (by omega)]

theorem sum_word {M : Type} [AddCommMonoid M] (F : BitVec 64 → M) :
    ∑ x : Fin 8 → BitVec 8, F (word x) = ∑ u : BitVec 64, F u := sum_words 8 F

/-! ### Counting pairs -/

theorem lways_gauss_zero (f : GaussianFn w) (L : Nat) (ps : List (BitVec w × BitVec w)) :
    lways (lrep 0 (lgauss f)) L ps = if ps = [] then 256 ^ L else 0 := by
  rw [lways]
  simp only [lrep, Option.map_some, Option.some.injEq]
  by_cases h : ps = []
  · subst h
    have : Fintype.card (BitVec 8) = 256 := by
      have := sum_bitVec 8 (fun _ => 1)
      simpa using this
    simp [this]
  · simp [h, Ne.symm h]

theorem lways_gauss_short (f : GaussianFn w) (m L : Nat) (hL : L < 16) (ps : List (BitVec w × BitVec w)) :
    lways (lrep (m + 1) (lgauss f)) L ps = 0 := by
  rw [lways]
  refine Finset.sum_eq_zero fun bs _ => if_neg ?_
  rw [lrep, lgauss_short f _ (by simpa using hL)]
  simp

theorem lways_gauss_nil (f : GaussianFn w) (m L : Nat) : lways (lrep (m + 1) (lgauss f)) L [] = 0 := by
  rw [lways]
  refine Finset.sum_eq_zero fun bs _ => if_neg ?_
  rw [lrep]
  cases lgauss f (List.ofFn bs) with
  | none => simp
  | some q =>
    cases h : lrep m (lgauss f) q.2 with
    | none => simp [h]
    | some q' => simp [h]

theorem lways_gauss_step (f : GaussianFn w) (m L : Nat) (p : BitVec w × BitVec w) (ps : List (BitVec w × BitVec w)) :
    lways (lrep (m + 1) (lgauss f)) (8 + (8 + L)) (p :: ps) =
      ∑ u : BitVec 64, ∑ v : BitVec 64,
        if f.accept u v then (if f.value u v = p then lways (lrep m (lgauss f)) L ps else 0)
        else lways (lrep (m + 1) (lgauss f)) L (p :: ps) := by
  have hs : ∀ (x y : Fin 8 → BitVec 8), (∑ z : Fin L → BitVec 8,
      if (lrep (m + 1) (lgauss f) (List.ofFn x ++ (List.ofFn y ++ List.ofFn z))).map Prod.fst = some (p :: ps) then 1 else 0) =
      if f.accept (word x) (word y) then (if f.value (word x) (word y) = p then lways (lrep m (lgauss f)) L ps else 0)
        else lways (lrep (m + 1) (lgauss f)) L (p :: ps) := by
    intro x y
    by_cases ha : f.accept (word x) (word y) = true
    · simp only [lrep, lgauss_append, ha, if_true]
      by_cases hv : f.value (word x) (word y) = p
      · rw [if_pos hv, lways]
        refine Finset.sum_congr rfl fun z _ => ?_
        cases lrep m (lgauss f) (List.ofFn z) with
        | none => simp
        | some q => simp [hv]
      · rw [if_neg hv]
        refine Finset.sum_eq_zero fun z _ => if_neg ?_
        cases lrep m (lgauss f) (List.ofFn z) with
        | none => simp
        | some q => simp [hv]
    · simp only [lrep, lgauss_append, ha, lways]
      rfl
  rw [lways, sum_append 8 (8 + L) fun bs => if (lrep (m + 1) (lgauss f) bs).map Prod.fst = some (p :: ps) then 1 else 0]
  rw [← sum_word fun u => ∑ v : BitVec 64, _]
  refine Finset.sum_congr rfl fun x _ => ?_
  rw [sum_append 8 L fun bs => if (lrep (m + 1) (lgauss f) (List.ofFn x ++ bs)).map Prod.fst = some (p :: ps) then 1 else 0,
    ← sum_word fun v => _]
  exact Finset.sum_congr rfl fun y _ => hs x y

/-! ### Signs -/

/-- `-x` or `x`. -/
def sgn {n : Nat} (b : Bool) (x : BitVec n) : BitVec n := if b then -x else x

theorem sgn_sgn {n : Nat} (b : Bool) (x : BitVec n) : sgn b (sgn b x) = x := by cases b <;> simp [sgn]

def sgnEquiv (n : Nat) (b : Bool) : BitVec n ≃ BitVec n := ⟨sgn b, sgn b, sgn_sgn b, sgn_sgn b⟩

/-- The sampler is odd in each of the two words. -/
structure SignSym (f : GaussianFn w) : Prop where
  accept : ∀ a b x y, f.accept (sgn a x) (sgn b y) = f.accept x y
  value : ∀ a b x y, f.accept x y = true →
    f.value (sgn a x) (sgn b y) = (sgn a (f.value x y).1, sgn b (f.value x y).2)

/-- The two pairs differ by signs only. -/
def SameUpToSign (p q : BitVec w × BitVec w) : Prop := ∃ a b, q = (sgn a p.1, sgn b p.2)

theorem lways_gauss_signs {f : GaussianFn w} (hf : SignSym f) : ∀ (L m : Nat) (ps qs : List (BitVec w × BitVec w)),
    List.Forall₂ SameUpToSign ps qs → lways (lrep m (lgauss f)) L ps = lways (lrep m (lgauss f)) L qs := by
  intro L
  induction L using Nat.strong_induction_on with
  | _ L ih =>
    intro m ps qs h
    cases m with
    | zero =>
      rw [lways_gauss_zero, lways_gauss_zero]
      cases h <;> simp
    | succ m =>
      by_cases hL : L < 16
      · rw [lways_gauss_short f m L hL, lways_gauss_short f m L hL]
      · obtain ⟨K, rfl⟩ : ∃ K, L = 8 + (8 + K) := ⟨L - 16, by omega⟩
        cases h with
        | nil => rfl
        | cons hp hps =>
          rename_i p q ps qs
          obtain ⟨a, b, rfl⟩ := hp
          rw [lways_gauss_step, lways_gauss_step]
          rw [← Equiv.sum_comp (sgnEquiv 64 a) (fun u => ∑ v : BitVec 64,
            if f.accept u v then (if f.value u v = (sgn a p.1, sgn b p.2) then lways (lrep m (lgauss f)) K qs else 0)
            else lways (lrep (m + 1) (lgauss f)) K ((sgn a p.1, sgn b p.2) :: qs))]
          refine Finset.sum_congr rfl fun u _ => ?_
          rw [← Equiv.sum_comp (sgnEquiv 64 b) (fun v =>
            if f.accept (sgnEquiv 64 a u) v then
              (if f.value (sgnEquiv 64 a u) v = (sgn a p.1, sgn b p.2) then lways (lrep m (lgauss f)) K qs else 0)
            else lways (lrep (m + 1) (lgauss f)) K ((sgn a p.1, sgn b p.2) :: qs))]
          refine Finset.sum_congr rfl fun v _ => ?_
          show _ = if f.accept (sgn a u) (sgn b v) then
              (if f.value (sgn a u) (sgn b v) = (sgn a p.1, sgn b p.2) then lways (lrep m (lgauss f)) K qs else 0)
            else lways (lrep (m + 1) (lgauss f)) K ((sgn a p.1, sgn b p.2) :: qs)
          rw [hf.accept]
          by_cases ha : f.accept u v = true
          · rw [if_pos ha, if_pos ha, hf.value a b u v ha, ih K (by omega) m ps qs hps]
            have : ((sgn a (f.value u v).1, sgn b (f.value u v).2) = (sgn a p.1, sgn b p.2)) ↔ f.value u v = p := by
              rw [Prod.mk.injEq, Prod.ext_iff]
              exact and_congr (sgnEquiv w a).injective.eq_iff (sgnEquiv w b).injective.eq_iff
            simp only [this]
          · rw [if_neg ha, if_neg ha]
            exact ih K (by omega) (m + 1) _ _ (List.Forall₂.cons ⟨a, b, rfl⟩ hps)

/-! ### From pairs to noises -/

theorem lrep_length {A : Type} (l : LSamp A) : ∀ (n : Nat) (bs : List (BitVec 8)) (q : List A × List (BitVec 8)),
    lrep n l bs = some q → q.1.length = n
  | 0, bs, q, h => by rw [lrep] at h; cases h; rfl
  | n + 1, bs, q, h => by
    rw [lrep] at h
    cases h1 : l bs with
    | none => rw [h1] at h; cases h
    | some p =>
      rw [h1] at h
      cases h2 : lrep n l p.2 with
      | none => simp only [h2] at h; cases h
      | some q' =>
        simp only [h2, Option.some.injEq] at h
        rw [← h, List.length_cons, lrep_length l n _ _ h2]

/-- The count of a function of `m` draws, as a sum over the draws. -/
theorem lways_map {A B : Type} [DecidableEq A] [Fintype A] [DecidableEq B] (l : LSamp A) (m L : Nat) (h : List A → B) (e : B) :
    lways (fun bs => (lrep m l bs).map fun r => (h r.1, r.2)) L e =
      ∑ ps : Fin m → A, if h (List.ofFn ps) = e then lways (lrep m l) L (List.ofFn ps) else 0 := by
  simp only [lways]
  have e1 : ∀ ps : Fin m → A, (if h (List.ofFn ps) = e then
      ∑ bs : Fin L → BitVec 8, if (lrep m l (List.ofFn bs)).map Prod.fst = some (List.ofFn ps) then 1 else 0 else 0) =
      ∑ bs : Fin L → BitVec 8, if (lrep m l (List.ofFn bs)).map Prod.fst = some (List.ofFn ps) ∧ h (List.ofFn ps) = e
        then 1 else 0 := by
    intro ps
    by_cases hp : h (List.ofFn ps) = e
    · simp only [hp, and_true, if_true]
    · simp [hp]
  simp only [e1]
  rw [Finset.sum_comm]
  refine Finset.sum_congr rfl fun bs _ => ?_
  rcases Option.eq_none_or_eq_some (lrep m l (List.ofFn bs)) with hr | ⟨q, hr⟩
  · simp [hr]
  · have hl := lrep_length l m _ _ hr
    obtain ⟨ps₀, h0⟩ : ∃ ps₀ : Fin m → A, List.ofFn ps₀ = q.1 := by
      subst hl
      exact ⟨fun i => q.1.get i, List.ofFn_get q.1⟩
    simp only [hr, Option.map_some, Option.some.injEq]
    rw [Finset.sum_eq_single ps₀]
    · rw [h0]; simp
    · intro ps _ hne
      rw [if_neg]
      rintro ⟨h1, -⟩
      exact hne (List.ofFn_injective (h1.symm.trans h0.symm))
    · intro hn; exact absurd (Finset.mem_univ _) hn

/-- If changing signs of the draws changes the result by `φ`, the results `e` and `φ e` are equally likely. -/
theorem lways_signs {B : Type} [DecidableEq B] {f : GaussianFn w} (hf : SignSym f) (m L : Nat)
    (h : List (BitVec w × BitVec w) → B) (φ : B → B) (hφ : Function.Injective φ) (a b : Nat → Bool)
    (hh : ∀ ps : Fin m → BitVec w × BitVec w,
      h (List.ofFn fun i : Fin m => (sgn (a i) (ps i).1, sgn (b i) (ps i).2)) = φ (h (List.ofFn ps))) (e : B) :
    lways (fun bs => (lrep m (lgauss f) bs).map fun r => (h r.1, r.2)) L e =
      lways (fun bs => (lrep m (lgauss f) bs).map fun r => (h r.1, r.2)) L (φ e) := by
  rw [lways_map, lways_map]
  refine Fintype.sum_equiv (Equiv.piCongrRight fun i : Fin m => (sgnEquiv w (a i)).prodCongr (sgnEquiv w (b i))) _ _ ?_
  intro ps
  have e1 : (Equiv.piCongrRight fun i : Fin m => (sgnEquiv w (a i)).prodCongr (sgnEquiv w (b i))) ps =
      fun i : Fin m => (sgn (a i) (ps i).1, sgn (b i) (ps i).2) := rfl
  rw [e1]
  simp only [hh, hφ.eq_iff]
  rw [lways_gauss_signs hf L m (List.ofFn ps) (List.ofFn fun i : Fin m => (sgn (a i) (ps i).1, sgn (b i) (ps i).2))]
  rw [List.forall₂_iff_get]
  refine ⟨by simp, fun i h1 h2 => ?_⟩
  simp only [List.get_eq_getElem, List.getElem_ofFn]
  exact ⟨_, _, rfl⟩

theorem flip_flip (σ : Nat → Bool) (es : List (BitVec w)) : flip σ (flip σ es) = es := by
  apply List.ext_getElem
  · simp [flip]
  · intro i h1 h2
    simp only [flip, List.getElem_mapIdx]
    split <;> simp

theorem flip_injective (σ : Nat → Bool) : Function.Injective (flip (w := w) σ) := fun x y h => by
  rw [← flip_flip σ x, h, flip_flip]

def lnoises (f : GaussianFn w) (n : Nat) : LSamp (List (BitVec w)) := fun bs =>
  (lrep n (lgauss f) bs).map fun r => (r.1.map Prod.fst, r.2)

def lnoise (f : GaussianFn w) : LSamp (BitVec w) := fun bs => (lgauss f bs).map fun r => (r.1.1, r.2)

theorem sim_noise (f : GaussianFn w) : Sim (randomNoise f) (lnoise f) := by
  intro g bs h
  rcases sim_gauss f g bs h with ⟨h1, h2⟩ | ⟨a, r, g', h1, h2, h3⟩
  · left; exact ⟨by rw [lnoise, h1]; rfl, by rw [randomNoise, h2]⟩
  · right; exact ⟨_, r, g', by rw [lnoise, h1]; rfl, by rw [randomNoise, h2], h3⟩

theorem lrep_noise (f : GaussianFn w) : ∀ (n : Nat) (bs : List (BitVec 8)), lrep n (lnoise f) bs = lnoises f n bs
  | 0, bs => rfl
  | n + 1, bs => by
    rw [lrep, lnoises, lrep, lnoise]
    cases lgauss f bs with
    | none => rfl
    | some p =>
      simp only [Option.map_some]
      rw [lrep_noise f n p.2, lnoises]
      cases lrep n (lgauss f) p.2 <;> rfl

def ltensor (f : GaussianFn w) (n : Nat) : LSamp (List (BitVec w)) := fun bs =>
  (lrep ((n + 1) / 2) (lgauss f) bs).map fun r => ((r.1.flatMap fun p => [p.1, p.2]).take n, r.2)

theorem sim_tensor (f : GaussianFn w) (n : Nat) : Sim (randomNoiseTensor f n) (ltensor f n) := by
  intro g bs h
  rcases (sim_gauss f).rep ((n + 1) / 2) g bs h with ⟨h1, h2⟩ | ⟨a, r, g', h1, h2, h3⟩
  · left; exact ⟨by rw [ltensor, h1]; rfl, by rw [randomNoiseTensor, h2]⟩
  · right; exact ⟨_, r, g', by rw [ltensor, h1]; rfl, by rw [randomNoiseTensor, h2], h3⟩

theorem flatMap_length (ps : List (BitVec w × BitVec w)) : (ps.flatMap fun p => [p.1, p.2]).length = 2 * ps.length := by
  induction ps with
  | nil => rfl
  | cons p ps ih => rw [List.flatMap_cons, List.length_append, ih, List.length_cons]; simp only [List.length_cons, List.length_nil]; omega

theorem flatMap_get : ∀ (ps : List (BitVec w × BitVec w)) (i : Nat), i < 2 * ps.length →
    (ps.flatMap fun p => [p.1, p.2]).getD i 0 =
      if i % 2 = 0 then (ps.getD (i / 2) (0, 0)).1 else (ps.getD (i / 2) (0, 0)).2
  | [], i, h => by simp at h
  | p :: ps, 0, _ => by simp
  | p :: ps, 1, _ => by simp
  | p :: ps, i + 2, h => by
    have e : (i + 2) / 2 = i / 2 + 1 := by omega
    have e2 : (i + 2) % 2 = i % 2 := by omega
    rw [e, e2, List.getD_cons_succ, ← flatMap_get ps i (by simp only [List.length_cons] at h; omega)]
    simp

theorem tensor_flip (σ : Nat → Bool) (n m : Nat) (ps : Fin m → BitVec w × BitVec w) :
    ((List.ofFn fun i : Fin m => (sgn (σ (2 * i)) (ps i).1, sgn (σ (2 * i + 1)) (ps i).2)).flatMap fun p => [p.1, p.2]).take n =
      flip σ (((List.ofFn ps).flatMap fun p => [p.1, p.2]).take n) := by
  apply List.ext_getElem
  · simp only [flip, List.length_mapIdx, List.length_take, flatMap_length, List.length_ofFn]
  · intro i h1 h2
    simp only [List.length_take, flatMap_length, List.length_ofFn] at h1
    simp only [flip, List.getElem_mapIdx, List.getElem_take]
    have hi : i < 2 * m := by omega
    have hi2 : i / 2 < m := by omega
    have k1 := flatMap_get (List.ofFn fun i : Fin m => (sgn (σ (2 * i)) (ps i).1, sgn (σ (2 * i + 1)) (ps i).2)) i (by simpa using hi)
    have k2 := flatMap_get (List.ofFn ps) i (by simpa using hi)
    have g1 : ∀ (l : List (BitVec w)) (h : i < l.length), l[i] = l.getD i 0 := fun l h => by
      rw [List.getD_eq_getElem?_getD, List.getElem?_eq_getElem h]; rfl
    have g2 : ∀ (l : List (BitVec w × BitVec w)) (h : i / 2 < l.length), l.getD (i / 2) (0, 0) = l[i / 2] := fun l h => by
      rw [List.getD_eq_getElem?_getD, List.getElem?_eq_getElem h]; rfl
    rw [g2 _ (by simpa using hi2)] at k1 k2
    rw [g1, g1, k1, k2]
    simp only [List.getElem_ofFn]
    by_cases hp : i % 2 = 0
    · rw [if_pos hp, if_pos hp, show 2 * (i / 2) = i by omega]; rfl
    · rw [if_neg hp, if_neg hp, show 2 * (i / 2) + 1 = i by omega]; rfl

theorem ways_tensor {f : GaussianFn w} (hf : SignSym f) (σ : Nat → Bool) (n L : Nat) (es : List (BitVec w)) :
    ways (randomNoiseTensor f n) L es = ways (randomNoiseTensor f n) L (flip σ es) := by
  rw [(sim_tensor f n).ways, (sim_tensor f n).ways]
  exact lways_signs hf _ L (fun ps => (ps.flatMap fun p => [p.1, p.2]).take n) (flip σ) (flip_injective σ)
    (fun i => σ (2 * i)) (fun i => σ (2 * i + 1)) (fun ps => tensor_flip σ n _ ps) es

theorem ways_noises {f : GaussianFn w} (hf : SignSym f) (σ : Nat → Bool) (n L : Nat) (es : List (BitVec w)) :
    ways (rep n (randomNoise f)) L es = ways (rep n (randomNoise f)) L (flip σ es) := by
  rw [((sim_noise f).rep n).ways, ((sim_noise f).rep n).ways]
  have e : lrep n (lnoise f) = lnoises f n := funext (lrep_noise f n)
  rw [e]
  refine lways_signs hf n L (fun ps => ps.map Prod.fst) (flip σ) (flip_injective σ) σ (fun _ => false) (fun ps => ?_) es
  apply List.ext_getElem
  · simp [flip]
  · intro i h1 h2
    simp [flip, sgn]

end Verif.Random
