import Verif.Npe.ExtProps
/-
C101: the noise of the CMux of the model with a GGSW ciphertext of a random bit, against the estimate of
`estimate_cmux_noise_with_binary_ggsw`. The experiment is the one of C99 (`ExtSpec`); the drawn words are those
of the second ciphertext, and a noise is drawn for each of the two ciphertexts.
-/
namespace Verif.Npe
open Verif.Poly Verif.Decomp Verif.BV Verif.Glwe Verif.Lwe Dist

variable {w N k l : Nat} {α β κ ε : Type} [Fintype α] [Fintype β] [Fintype κ] [Fintype ε]

/-- The words of a ciphertext, polynomial after polynomial. -/
def wordsOf (ct : Fin (k + 1) → Fin N → BitVec w) : List (BitVec w) :=
  (List.ofFn fun r => List.ofFn fun a => ct r a).flatten

/-! ### Proofs -/

/-- The experiment with the words of `ct0` subtracted. -/
def shift (ct0 : Fin (k + 1) → Fin N → BitVec w) (ω : EpTuple w N k l α κ ε) : EpTuple w N k l α κ ε :=
  (ω.1, (fun r a => ω.2.1 r a - ct0 r a), ω.2.2)

/-- Uniform words stay uniform. -/
theorem E_shift (d : Dist α) (dk : Dist κ) (de : Dist ε) (ct0 : Fin (k + 1) → Fin N → BitVec w)
    (F : EpTuple w N k l α κ ε → ℚ) :
    (epDist w N k l d dk de).E (fun ω => F (shift ct0 ω)) = (epDist w N k l d dk de).E F := by
  rw [epDist, E_prod, E_prod _ _ F]
  refine E_congr _ fun x => ?_
  rw [E_prod, E_prod _ _ (fun y => F (x, y))]
  change (iid (k + 1) (iid N (uniform (BitVec w)))).E (fun ct => _) = _
  let G : (Fin (k + 1) → Fin N → BitVec w) → ℚ := fun ct =>
    ((iid N d).prod (iid l (iid (k + 1) (iid N de)))).E fun b => F (x, ct, b)
  let σ : Equiv.Perm (Fin (k + 1) → Fin N → BitVec w) :=
    ⟨fun ct r a => ct r a - ct0 r a, fun ct r a => ct r a + ct0 r a,
      fun ct => by funext r a; simp, fun ct => by funext r a; simp⟩
  change (iid (k + 1) (iid N (uniform (BitVec w)))).E (fun ct => G (σ ct)) =
    (iid (k + 1) (iid N (uniform (BitVec w)))).E G
  rw [E, E, ← Equiv.sum_comp σ (fun ct => (iid (k + 1) (iid N (uniform (BitVec w)))).p ct * G ct)]
  refine Finset.sum_congr rfl fun ct _ => ?_
  rfl

omit [Fintype α] [Fintype κ] [Fintype ε] in
theorem ctList_fits (ω : EpSample w N k l α κ ε) : CtFits N k ω.ctList := by
  rw [CtFits, EpSample.ctList, flatten_length_uniform N]
  · simp
  · intro x hx
    obtain ⟨j, rfl⟩ := (List.mem_ofFn).1 hx
    simp

theorem wordsOf_fits (ct : Fin (k + 1) → Fin N → BitVec w) : CtFits N k (wordsOf ct) := by
  rw [CtFits, wordsOf, flatten_length_uniform N]
  · simp
  · intro x hx
    obtain ⟨j, rfl⟩ := (List.mem_ofFn).1 hx
    simp

/-- Subtraction, block by block. -/
theorem block_zipSub (hN : 0 < N) (x y : Fin (k + 1) → Fin N → BitVec w) (r : Fin (k + 1)) :
    block N (zipUpdate (fun c1 c0 => c1 - c0) (wordsOf x) (wordsOf y)) r =
      List.ofFn fun a => x r a - y r a := by
  have hx := block_ofFn hN x r
  have hy := block_ofFn hN y r
  rw [zipUpdate_eq_zipWith _ _ _ (by rw [wordsOf_fits x, wordsOf_fits y]), block, List.drop_zipWith, List.take_zipWith]
  change List.zipWith _ (block N (wordsOf x) r) (block N (wordsOf y) r) = _
  rw [wordsOf, wordsOf, hx, hy]
  apply List.ext_getElem (by simp)
  intro i h1 h2
  simp

theorem wordsOf_sub (hN : 0 < N) (x y : Fin (k + 1) → Fin N → BitVec w) :
    zipUpdate (fun c1 c0 => c1 - c0) (wordsOf x) (wordsOf y) = wordsOf fun r a => x r a - y r a := by
  have h1 : (zipUpdate (fun c1 c0 => c1 - c0) (wordsOf x) (wordsOf y)).length = (k + 1) * N := by
    rw [zipUpdate_length, wordsOf_fits]
  have h2 : (wordsOf fun r a => x r a - y r a).length = (k + 1) * N := wordsOf_fits _
  apply List.ext_getElem (h1.trans h2.symm)
  intro i hi hi'
  have hlt : i < (k + 1) * N := by omega
  have hr : i / N < k + 1 := Nat.div_lt_of_lt_mul (by rw [Nat.mul_comm]; exact hlt)
  have hb := (block_zipSub hN x y ⟨i / N, hr⟩).trans
    (block_ofFn hN (fun r a => x r a - y r a) ⟨i / N, hr⟩).symm
  have hdiv : i / N * N + i % N = i := by rw [Nat.mul_comm]; exact Nat.div_add_mod i N
  have get : ∀ L : List (BitVec w), L[i]? = (block N L (i / N))[i % N]? := by
    intro L
    rw [block, List.getElem?_take_of_lt (Nat.mod_lt _ hN), List.getElem?_drop, hdiv]
  have := (get _).trans ((congrArg (fun L => L[i % N]?) hb).trans (get _).symm)
  rw [List.getElem?_eq_getElem hi] at this
  change some _ = (wordsOf fun r a => x r a - y r a)[i]? at this
  rw [List.getElem?_eq_getElem hi'] at this
  exact Option.some.inj this

theorem phase_sub (key : List (BitVec w)) (x y : Fin (k + 1) → Fin N → BitVec w) (hN : 0 < N) :
    glwePhase N k key (wordsOf fun r a => x r a - y r a) =
      glwePhase N k key (wordsOf x) - glwePhase N k key (wordsOf y) := by
  have hb : ∀ r : Fin (k + 1), toRq N (block N (wordsOf fun r a => x r a - y r a) r) =
      toRq N (block N (wordsOf x) r) - toRq N (block N (wordsOf y) r) := by
    intro r
    rw [wordsOf, wordsOf, wordsOf, block_ofFn hN (fun r a => x r a - y r a) r, block_ofFn hN x r,
      block_ofFn hN y r, ← toRq_sub N _ _ (by simp), Poly.sub, zipUpdate_eq_zipWith _ _ _ (by simp)]
    congr 1
    apply List.ext_getElem (by simp)
    intro i h1 h2
    simp
  have hl := hb (Fin.last k)
  rw [Fin.val_last] at hl
  rw [glwePhase, glwePhase, glwePhase, hl, Finset.sum_range, Finset.sum_range, Finset.sum_range,
    Finset.sum_congr rfl (g := fun i : Fin k => toRq N (block N (wordsOf x) i) * toRq N (block N key i) -
      toRq N (block N (wordsOf y) i) * toRq N (block N key i)) (fun i _ => by
      have := hb i.castSucc
      rw [Fin.val_castSucc] at this
      rw [this, sub_mul]), Finset.sum_sub_distrib]
  ring

/-- The noise of the selected input. -/
def selNoise (e₀ : α → Int) (e₁ : β → Int) (ω : EpTuple w N k l (α × β) κ ε) (c : Fin N) : Int :=
  if ω.1.1 then e₁ (ω.2.2.1 c).2 else e₀ (ω.2.2.1 c).1

/-- The noise of the CMux. -/
def cmuxNoiseOf (b : Nat) (X : κ → Int) (e₀ : α → Int) (e₁ : β → Int) (e : ε → Int)
    (ct0 : Fin (k + 1) → Fin N → BitVec w) (ω : EpTuple w N k l (α × β) κ ε) (c : Fin N) : Int :=
  selNoise e₀ e₁ ω c + epNoise b X (fun _ => 0) e (shift ct0 ω).sample c

omit [Fintype α] [Fintype β] [Fintype κ] [Fintype ε] in
theorem cmux_phase (T : Pbs.Transform w) (b : Nat) (hN : 0 < N) (D : Int)
    (hT : T.Accurate N (l * (k + 1)) D 0) (hD : 2 ^ (b - 1) ≤ D) (hv : ValidParams w b l)
    (X : κ → Int) (e₀ : α → Int) (e₁ : β → Int) (e : ε → Int) (ct0 : Fin (k + 1) → Fin N → BitVec w)
    (ω : EpTuple w N k l (α × β) κ ε) (ggsw : List (BitVec w))
    (hg : GgswEnc N k b l (ω.sample.keyList X) ggsw ω.sample.bitPoly (ω.sample.err e)) :
    glwePhase N k (ω.sample.keyList X)
        (Pbs.cmuxFft T N k b l (Pbs.convert T N ggsw) (wordsOf ct0) ω.sample.ctList) =
      (if ω.sample.bit then glwePhase N k (ω.sample.keyList X) ω.sample.ctList -
          polyOf w (fun c => e₁ (ω.sample.noise c).2)
        else glwePhase N k (ω.sample.keyList X) (wordsOf ct0) -
          polyOf w (fun c => e₀ (ω.sample.noise c).1)) +
      polyOf w (cmuxNoiseOf b X e₀ e₁ e ct0 ω) := by
  have h := ep_phase T b hN D hT hD hv X (fun _ : α × β => 0) e (shift ct0 ω).sample (wordsOf ct0) ggsw
    (wordsOf_fits ct0) hg
  have hk : (shift ct0 ω).sample.keyList X = ω.sample.keyList X := rfl
  have hc : (shift ct0 ω).sample.ctList =
      zipUpdate (fun c1 c0 => c1 - c0) (wordsOf ω.sample.ct) (wordsOf ct0) := (wordsOf_sub hN _ _).symm
  have hbp : (shift ct0 ω).sample.bitPoly = ω.sample.bitPoly := rfl
  rw [hk, hbp, polyOf_zero, sub_zero, hc] at h
  have hcl : ω.sample.ctList = wordsOf ω.sample.ct := rfl
  have hcm : polyOf w (cmuxNoiseOf b X e₀ e₁ e ct0 ω) = polyOf w (selNoise e₀ e₁ ω) +
      polyOf w (epNoise b X (fun _ => 0) e (shift ct0 ω).sample) := by
    rw [← polyOf_add]; rfl
  rw [Pbs.cmuxFft, Pbs.cmux, hcl, hcm]
  simp only
  rw [h, wordsOf_sub hN, phase_sub _ _ _ hN]
  rcases ω with ⟨⟨bit, key⟩, ct, noise, rows⟩
  cases bit
  · simp only [EpSample.bitPoly, EpTuple.sample, Bool.false_eq_true, if_false]
    have : polyOf w (selNoise e₀ e₁ ((false, key), ct, noise, rows)) =
        polyOf w (fun c => e₀ (noise c).1) := rfl
    rw [this]; ring
  · simp only [EpSample.bitPoly, EpTuple.sample, if_true]
    have : polyOf w (selNoise e₀ e₁ ((true, key), ct, noise, rows)) =
        polyOf w (fun c => e₁ (noise c).2) := rfl
    rw [this]; ring

/-- The variance of the noise of the CMux. -/
theorem cmux_variance (b : Nat) (d₀ : Dist α) (d₁ : Dist β) (dk : Dist κ) (de : Dist ε)
    (e₀ : α → Int) (e₁ : β → Int) (X : κ → Int) (e : ε → Int) (h0 : d₀.E (fun x => (e₀ x : ℚ)) = 0)
    (h1 : d₁.E (fun x => (e₁ x : ℚ)) = 0)
    (ct0 : Fin (k + 1) → Fin N → BitVec w) (c : Fin N) :
    (epDist w N k l (d₀.prod d₁) dk de).Var (fun ω => (cmuxNoiseOf b X e₀ e₁ e ct0 ω c : ℚ)) =
      1 / 2 * (d₀.Var (fun x => (e₀ x : ℚ)) + d₁.Var (fun x => (e₁ x : ℚ))) +
      (epDist w N k l (d₀.prod d₁) dk de).Var (fun ω => (epNoise b X (fun _ => 0) e ω.sample c : ℚ)) := by
  set P := epDist w N k l (d₀.prod d₁) dk de with hP
  let Z : EpTuple w N k l (α × β) κ ε → ℚ := fun ω => (epNoise b X (fun _ => 0) e ω.sample c : ℚ)
  let S : EpTuple w N k l (α × β) κ ε → ℚ := fun ω => (selNoise e₀ e₁ ω c : ℚ)
  let Sx : Bool → (Fin N → α × β) → ℚ := fun x z => if x then (e₁ (z c).2 : ℚ) else (e₀ (z c).1 : ℚ)
  have hS : ∀ ω, S ω = Sx ω.1.1 ω.2.2.1 := by
    intro ω; simp only [S, Sx, selNoise]; split <;> rfl
  -- for a given bit
  have hm : ∀ x, (iid N (d₀.prod d₁)).E (Sx x) = 0 := by
    intro x
    cases x
    · change (iid N (d₀.prod d₁)).E (fun z => (e₀ (z c).1 : ℚ)) = 0
      rw [iid, E_pi_one (fun _ => d₀.prod d₁) c (fun x => (e₀ x.1 : ℚ)),
        E_prod_fst d₀ d₁ (fun x => (e₀ x : ℚ)), h0]
    · change (iid N (d₀.prod d₁)).E (fun z => (e₁ (z c).2 : ℚ)) = 0
      rw [iid, E_pi_one (fun _ => d₀.prod d₁) c (fun x => (e₁ x.2 : ℚ)),
        E_prod_snd d₀ d₁ (fun x => (e₁ x : ℚ)), h1]
  have hq : ∀ x, (iid N (d₀.prod d₁)).E (fun z => Sx x z ^ 2) =
      if x then d₁.Var (fun x => (e₁ x : ℚ)) else d₀.Var (fun x => (e₀ x : ℚ)) := by
    intro x
    cases x
    · change (iid N (d₀.prod d₁)).E (fun z => (e₀ (z c).1 : ℚ) ^ 2) = _
      rw [iid, E_pi_one (fun _ => d₀.prod d₁) c (fun x => (e₀ x.1 : ℚ) ^ 2),
        E_prod_fst d₀ d₁ (fun x => (e₀ x : ℚ) ^ 2), Var_eq d₀, h0]
      simp
    · change (iid N (d₀.prod d₁)).E (fun z => (e₁ (z c).2 : ℚ) ^ 2) = _
      rw [iid, E_pi_one (fun _ => d₀.prod d₁) c (fun x => (e₁ x.2 : ℚ) ^ 2),
        E_prod_snd d₀ d₁ (fun x => (e₁ x : ℚ) ^ 2), Var_eq d₁, h1]
      simp
  have hES : P.E S = 0 := by
    rw [E_congr P hS, hP, epDist, E_prod, E_congr _ (Y := fun _ => 0), E_const]
    intro x
    rw [E_prod, E_congr _ (Y := fun _ => 0), E_const]
    intro ct
    rw [E_prod_fst (iid N (d₀.prod d₁)) _ (fun z => Sx x.1 z), show (fun z => Sx x.1 z) = Sx x.1 from rfl, hm]
  have hES2 : P.E (fun ω => S ω ^ 2) =
      1 / 2 * (d₀.Var (fun x => (e₀ x : ℚ)) + d₁.Var (fun x => (e₁ x : ℚ))) := by
    rw [E_congr P (Y := fun ω => Sx ω.1.1 ω.2.2.1 ^ 2) (fun ω => by rw [hS]), hP, epDist, E_prod,
      E_congr _ (Y := fun x : Bool × (Fin k → Fin N → κ) =>
        if x.1 then d₁.Var (fun x => (e₁ x : ℚ)) else d₀.Var (fun x => (e₀ x : ℚ))),
      E_prod_fst (uniform Bool) _ (fun x : Bool =>
        if x then d₁.Var (fun x => (e₁ x : ℚ)) else d₀.Var (fun x => (e₀ x : ℚ))), E_uniform]
    · simp; ring
    · intro x
      rw [E_prod, E_congr _ (Y := fun _ => if x.1 then d₁.Var (fun x => (e₁ x : ℚ)) else
        d₀.Var (fun x => (e₀ x : ℚ))), E_const]
      intro ct
      rw [E_prod_fst (iid N (d₀.prod d₁)) _ (fun z => Sx x.1 z ^ 2), hq]
  have hZ : ∀ (x : Bool × (Fin k → Fin N → κ)) (ct : Fin (k + 1) → Fin N → BitVec w)
      (y : (Fin N → α × β) × (Fin l → Fin (k + 1) → Fin N → ε)),
      Z (shift ct0 (x, ct, y)) = ((if x.1 then roundNoise b X (shift ct0 (x, ct, y)).sample c else 0 : Int) : ℚ) +
        ∑ j, ∑ r, ∑ a, rowsCf b l (fun r a => ct r a - ct0 r a) c j r a * (e (y.2 j r a) : ℚ) := by
    intro x ct y
    change ((epNoise b X (fun _ => 0) e (shift ct0 (x, ct, y)).sample c : Int) : ℚ) = _
    rw [epNoise]
    push_cast
    rw [rowsNoise_rat b e (shift ct0 (x, ct, y)).sample c]
    congr 1
    change (if x.1 then _ else _) = _
    split <;> simp
  have hcross : P.E (fun ω => S ω * Z (shift ct0 ω)) = 0 := by
    rw [E_congr P (Y := fun ω => Sx ω.1.1 ω.2.2.1 * Z (shift ct0 ω)) (fun ω => by rw [hS]), hP, epDist, E_prod,
      E_congr _ (Y := fun _ => 0), E_const]
    intro x
    rw [E_prod, E_congr _ (Y := fun _ => 0), E_const]
    intro ct
    let W : (Fin l → Fin (k + 1) → Fin N → ε) → ℚ := fun rows =>
      ((if x.1 then roundNoise b X (EpSample.mk (w := w) (α := Unit) (l := l) (ε := ε) x.1 x.2
        (fun r a => ct r a - ct0 r a) (fun _ => ()) rows) c else 0 : Int) : ℚ) +
        ∑ j, ∑ r, ∑ a, rowsCf b l (fun r a => ct r a - ct0 r a) c j r a * (e (rows j r a) : ℚ)
    rw [E_congr _ (Y := fun y : (Fin N → α × β) × (Fin l → Fin (k + 1) → Fin N → ε) => Sx x.1 y.1 * W y.2)
      (fun y => by rw [hZ]; rfl), E_prod_mul (iid N (d₀.prod d₁)) _ (Sx x.1) W, hm, zero_mul]
  have hform : ∀ ω, ((cmuxNoiseOf b X e₀ e₁ e ct0 ω c : Int) : ℚ) = S ω + Z (shift ct0 ω) := by
    intro ω; rw [cmuxNoiseOf]; push_cast; rfl
  rw [Var_congr P hform, Var_eq, E_add, hES,
    E_congr P (Y := fun ω => S ω ^ 2 + 2 * (S ω * Z (shift ct0 ω)) + Z (shift ct0 ω) ^ 2) (fun ω => by ring),
    E_add, E_add, E_mul_left, hcross, hES2, hP, E_shift _ dk de ct0 (fun ω => Z ω ^ 2), E_shift _ dk de ct0 Z,
    Var_eq (epDist w N k l (d₀.prod d₁) dk de)]
  ring

/-- C101. CMux (any transform that computes products exactly) with a GGSW ciphertext of a uniform bit, of an
arbitrary ciphertext `ct0` and a ciphertext of uniform words, under a key whose coefficients have the mean and
variance of the kind of key `K`, all noises centred and bounded so that nothing wraps. The result is the
message of the selected ciphertext plus a noise polynomial `ν`. The variance of coefficient `c` is the estimate
minus the variance `v₀` of the noise of `ct0` (the estimate counts it twice: the noise of the difference and the
noise of `ct0` are not independent), minus the deviation of the digits, plus the difference of the squared
means of C99. For centred keys, and for the last coefficient with any key, the estimate is at least `v₀` too
large. -/
theorem C101_cmux (T : Pbs.Transform w) (b : Nat) (hN : 0 < N) (D : Int)
    (hT : T.Accurate N (l * (k + 1)) D 0) (hD : 2 ^ (b - 1) ≤ D) (hv : ValidParams w b l)
    (K : KeyDispersion) (d₀ : Dist α) (d₁ : Dist β) (dk : Dist κ) (de : Dist ε)
    (e₀ : α → Int) (e₁ : β → Int) (X : κ → Int) (e : ε → Int)
    (hK : K.expCoef = dk.E fun x => (X x : ℚ)) (hKv : modVar (K.varCoef w) w = dk.Var fun x => (X x : ℚ))
    (h0 : d₀.E (fun x => (e₀ x : ℚ)) = 0) (h1 : d₁.E (fun x => (e₁ x : ℚ)) = 0)
    (he : de.E (fun x => (e x : ℚ)) = 0)
    (A₀ A₁ A₂ : Nat) (h₀ : ∀ x, |e₀ x| ≤ A₀) (h₀' : ∀ x, |e₁ x| ≤ A₀) (h₁ : ∀ x, |X x| ≤ A₁)
    (h₂ : ∀ x, |e x| ≤ A₂)
    (hsmall : A₀ + (k * (N * A₁) + 1) * 2 ^ (w - b * l - 1) + l * ((k + 1) * (N * (A₂ * 2 ^ (b - 1)))) <
      2 ^ (w - 1))
    (ct0 : Fin (k + 1) → Fin N → BitVec w) (ggsw : EpTuple w N k l (α × β) κ ε → List (BitVec w))
    (hg : ∀ ω, GgswEnc N k b l (ω.sample.keyList X) (ggsw ω) ω.sample.bitPoly (ω.sample.err e)) :
    ∃ ν : EpTuple w N k l (α × β) κ ε → Fin N → Int,
      (∀ ω c, |ν ω c| < 2 ^ (w - 1)) ∧
      (∀ ω, glwePhase N k (ω.sample.keyList X)
          (Pbs.cmuxFft T N k b l (Pbs.convert T N (ggsw ω)) (wordsOf ct0) ω.sample.ctList) =
        (if ω.sample.bit then glwePhase N k (ω.sample.keyList X) ω.sample.ctList -
            polyOf w (fun c => e₁ (ω.sample.noise c).2)
          else glwePhase N k (ω.sample.keyList X) (wordsOf ct0) -
            polyOf w (fun c => e₀ (ω.sample.noise c).1)) + polyOf w (ν ω)) ∧
      ∀ c : Fin N, ∃ V, V = (epDist w N k l (d₀.prod d₁) dk de).Var (fun ω => (ν ω c : ℚ)) ∧
      ∃ est, est = modVar (cmuxNoise K k N b l (ofModVar (d₀.Var fun x => (e₀ x : ℚ)) w)
          (ofModVar (d₁.Var fun x => (e₁ x : ℚ)) w) (ofModVar (de.Var fun x => (e x : ℚ)) w) w) w ∧
      V = est - (d₀.Var fun x => (e₀ x : ℚ)) - (k + 1) * N * (de.Var fun x => (e x : ℚ)) * digitGap (2 ^ b) l +
        1 / 16 * ((1 - k * K.expCoef * (2 * (c : ℚ) + 2 - N)) ^ 2 - (1 - k * K.expCoef * N) ^ 2) ∧
      (K.expCoef = 0 ∨ (c : Nat) = N - 1 → V + (d₀.Var fun x => (e₀ x : ℚ)) ≤ est) := by
  have hsm : ((A₀ + (k * (N * A₁) + 1) * 2 ^ (w - b * l - 1) + l * ((k + 1) * (N * (A₂ * 2 ^ (b - 1)))) : Nat) :
      Int) < ((2 ^ (w - 1) : Nat) : Int) := by exact_mod_cast hsmall
  push_cast at hsm
  refine ⟨fun ω => cmuxNoiseOf b X e₀ e₁ e ct0 ω, fun ω c => ?_, fun ω => ?_, fun c => ?_⟩
  · have hb := epNoise_bound b hv X (fun _ : α × β => 0) e 0 A₁ A₂ (by simp) h₁ h₂ (shift ct0 ω).sample c
    have hs : |selNoise e₀ e₁ ω c| ≤ A₀ := by
      rw [selNoise]
      split
      · exact h₀' _
      · exact h₀ _
    change |cmuxNoiseOf b X e₀ e₁ e ct0 ω c| < _
    rw [cmuxNoiseOf]
    push_cast at hb
    have := abs_add_le (selNoise e₀ e₁ ω c) (epNoise b X (fun _ => 0) e (shift ct0 ω).sample c)
    linarith
  · exact cmux_phase T b hN D hT hD hv X e₀ e₁ e ct0 ω (ggsw ω) (hg ω)
  · have hz : (d₀.prod d₁).E (fun _ => (((0 : Int)) : ℚ)) = 0 := by rw [E_const]; rfl
    have hzv : (d₀.prod d₁).Var (fun _ => (((0 : Int)) : ℚ)) = 0 := by simp [Var, E_const]
    have key : (epDist w N k l (d₀.prod d₁) dk de).Var (fun ω => (cmuxNoiseOf b X e₀ e₁ e ct0 ω c : ℚ)) =
        modVar (cmuxNoise K k N b l (ofModVar (d₀.Var fun x => (e₀ x : ℚ)) w)
          (ofModVar (d₁.Var fun x => (e₁ x : ℚ)) w) (ofModVar (de.Var fun x => (e x : ℚ)) w) w) w -
        (d₀.Var fun x => (e₀ x : ℚ)) - (k + 1) * N * (de.Var fun x => (e x : ℚ)) * digitGap (2 ^ b) l +
        1 / 16 * ((1 - k * K.expCoef * (2 * (c : ℚ) + 2 - N)) ^ 2 - (1 - k * K.expCoef * N) ^ 2) := by
      rw [cmux_variance b d₀ d₁ dk de e₀ e₁ X e h0 h1 ct0 c,
        ep_variance b hv (d₀.prod d₁) dk de (fun _ => 0) X e hz he c, hzv, sum_meanSq, cmuxNoise,
        externalProductNoise, additionNoise, additionNoise]
      simp only [modVar_ofModVar]
      rw [hKv, hK, Var_eq dk]
      have h2 : (2 ^ (b * 2 * l) : ℚ) ≠ 0 := by positivity
      have hq : (2 ^ (2 * w) : ℚ) = (2 ^ (w - b * l) : ℚ) ^ 2 * 2 ^ (b * 2 * l) := by
        rw [← pow_mul, ← pow_add]; congr 1
        have := hv.fits
        rw [show b * 2 * l = b * l * 2 by ring]; omega
      rw [hq, square, square, square]
      field_simp
      ring
    refine ⟨_, rfl, _, rfl, key, fun hc => ?_⟩
    have hu := ep_upper (w := w) (k := k) b hv K de de e e c hc
    rw [key]
    linarith

-- the hypotheses are those of C99: see the examples and `exists_ggsw` in `ExtProps`
example (hN : 0 < N) (b : Nat) (X : κ → Int) (e : ε → Int) :
    ∃ ggsw : EpTuple w N k l (α × β) κ ε → List (BitVec w), ∀ ω,
      GgswEnc N k b l (ω.sample.keyList X) (ggsw ω) ω.sample.bitPoly (ω.sample.err e) :=
  ⟨fun ω => (exists_ggsw hN b _ _ (ω.sample.err e)).choose,
    fun ω => (exists_ggsw hN b _ _ (ω.sample.err e)).choose_spec⟩

end Verif.Npe
