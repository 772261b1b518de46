import Verif.Ntt.Accurate
/-
A checker for the parameter tables of the NTT, on natural numbers, and its soundness.
-/
set_option linter.unusedSectionVars false
namespace Verif.Ntt

/-- A parameter set: params/params_*_*.rs `MOD`, `NINV`, `ROOTS` and `INVROOTS`, for polynomials of size
`2^log`. -/
structure Params where
  log : Nat
  q : Nat
  nInv : Nat
  roots : List Nat
  rootsInv : List Nat

/-- The tables built from a parameter set with words of `W` bits, as in the doc example of transform.rs:27-52: every
constant becomes an element modulo `q`. -/
def Params.tables (W : Nat) (P : Params) : Tables (ModQ W) where
  logSize := P.log
  roots := P.roots.map fun r => ModQ.new (BitVec.ofNat W r) (BitVec.ofNat W P.q)
  rootsInv := P.rootsInv.map fun r => ModQ.new (BitVec.ofNat W r) (BitVec.ofNat W P.q)
  nInv := ModQ.new (BitVec.ofNat W P.nInv) (BitVec.ofNat W P.q)

/-- What C36 claims of a parameter set for a torus of `w` bits. -/
structure TableCorrect (w : Nat) (P : Params) : Prop where
  odd_q : P.q % 2 = 1
  q_lt : P.q < 2 ^ w
  q_gt : 1 < P.q
  len : P.roots.length = 2 ^ P.log
  lenInv : P.rootsInv.length = 2 ^ P.log
  one : (P.roots.getD 1 0) ^ 2 % P.q = P.q - 1
  even : ∀ k, 1 ≤ k → 2 * k < 2 ^ P.log → (P.roots.getD (2 * k) 0) ^ 2 % P.q = P.roots.getD k 0
  odd : ∀ k, 1 ≤ k → 2 * k + 1 < 2 ^ P.log → (P.roots.getD (2 * k + 1) 0) ^ 2 % P.q = P.q - P.roots.getD k 0
  inv : ∀ k, 1 ≤ k → k < 2 ^ P.log → P.roots.getD k 0 * P.rootsInv.getD k 0 % P.q = 1
  ninv : P.nInv * 2 ^ P.log % P.q = 1
  reduced : P.nInv < P.q ∧ (∀ r ∈ P.roots, r < P.q) ∧ ∀ r ∈ P.rootsInv, r < P.q

/-- The relations between the roots of a node and of its two children. -/
def checkTree (q : Nat) : List Nat → List Nat → Bool
  | p :: ps, a :: b :: cs => a * a % q == p && (b * b % q == q - p && checkTree q ps cs)
  | _, [] => true
  | _, _ => false

/-- Products equal to one. -/
def checkInv (q : Nat) : List Nat → List Nat → Bool
  | a :: l, b :: m => a * b % q == 1 && checkInv q l m
  | [], [] => true
  | _, _ => false

/-- All elements are reduced. -/
def checkLt (q : Nat) : List Nat → Bool
  | a :: l => Nat.blt a q && checkLt q l
  | [] => true

/-- The checks. -/
def check (w : Nat) (P : Params) : Bool :=
  P.q % 2 == 1 && Nat.blt P.q (2 ^ w) && Nat.blt 1 P.q && P.roots.length == 2 ^ P.log && P.rootsInv.length == 2 ^ P.log &&
  (P.nInv * 2 ^ P.log % P.q == 1) && Nat.blt P.nInv P.q && checkLt P.q P.roots && checkLt P.q P.rootsInv &&
  (P.roots.getD 1 0 * P.roots.getD 1 0 % P.q == P.q - 1) &&
  checkTree P.q P.roots.tail P.roots.tail.tail && checkInv P.q P.roots.tail P.rootsInv.tail

theorem checkLt_sound {q : Nat} {l : List Nat} (h : checkLt q l = true) : ∀ r ∈ l, r < q := by
  induction l with
  | nil => simp
  | cons a l ih =>
    simp only [checkLt, Bool.and_eq_true, Nat.blt_eq] at h
    intro r hr
    rcases List.mem_cons.1 hr with rfl | hr
    · exact h.1
    · exact ih h.2 r hr

theorem checkInv_sound {q : Nat} {l m : List Nat} (h : checkInv q l m = true) (k : Nat) (hk : k < l.length) :
    l.getD k 0 * m.getD k 0 % q = 1 := by
  induction l generalizing m k with
  | nil => simp at hk
  | cons a l ih =>
    cases m with
    | nil => simp [checkInv] at h
    | cons b m =>
      simp only [checkInv, Bool.and_eq_true, beq_iff_eq] at h
      cases k with
      | zero => simpa using h.1
      | succ k => simpa using ih h.2 k (by simpa using hk)

theorem checkTree_sound {q : Nat} {ps cs : List Nat} (h : checkTree q ps cs = true) (k : Nat) :
    (2 * k < cs.length → cs.getD (2 * k) 0 ^ 2 % q = ps.getD k 0) ∧
    (2 * k + 1 < cs.length → cs.getD (2 * k + 1) 0 ^ 2 % q = q - ps.getD k 0) := by
  induction ps generalizing cs k with
  | nil =>
    cases cs with
    | nil => simp
    | cons a cs => simp [checkTree] at h
  | cons p ps ih =>
    cases cs with
    | nil => simp
    | cons a cs =>
      cases cs with
      | nil => simp [checkTree] at h
      | cons b cs =>
        simp only [checkTree, Bool.and_eq_true, beq_iff_eq] at h
        cases k with
        | zero => simp [pow_two, h.1, h.2.1]
        | succ k =>
          have := ih h.2.2 k
          simp only [show 2 * (k + 1) = 2 * k + 1 + 1 by ring, List.getD_cons_succ, List.length_cons]
          exact ⟨fun hk => this.1 (by omega), fun hk => this.2 (by omega)⟩

theorem getD_tail (l : List Nat) (k : Nat) : l.tail.getD k 0 = l.getD (k + 1) 0 := by
  cases l <;> simp

theorem check_sound {w : Nat} {P : Params} (h : check w P = true) : TableCorrect w P := by
  simp only [check, Bool.and_eq_true, beq_iff_eq, Nat.blt_eq] at h
  obtain ⟨⟨⟨⟨⟨⟨⟨⟨⟨⟨⟨h1, h2⟩, h3⟩, h4⟩, h5⟩, h6⟩, h7⟩, h8⟩, h9⟩, h10⟩, h11⟩, h12⟩ := h
  refine ⟨h1, h2, h3, h4, h5, by rw [pow_two]; exact h10, fun k hk hk2 => ?_, fun k hk hk2 => ?_, fun k hk hk2 => ?_, h6,
    h7, checkLt_sound h8, checkLt_sound h9⟩
  · have := (checkTree_sound h11 (k - 1)).1 (by simp; omega)
    rw [getD_tail, getD_tail, getD_tail, show 2 * (k - 1) + 1 + 1 = 2 * k by omega, show k - 1 + 1 = k by omega] at this
    exact this
  · have := (checkTree_sound h11 (k - 1)).2 (by simp; omega)
    rw [getD_tail, getD_tail, getD_tail, show 2 * (k - 1) + 1 + 1 + 1 = 2 * k + 1 by omega,
      show k - 1 + 1 = k by omega] at this
    exact this
  · have := checkInv_sound h12 (k - 1) (by simp; omega)
    rw [getD_tail, getD_tail, show k - 1 + 1 = k by omega] at this
    exact this

/-! ### From the tables of numbers to the tables of `ModQ` -/

theorem toZ_new {W : Nat} (Q : Nat) (hQ : Q < 2 ^ W) (r : Nat) (hr : r < Q) :
    toZ (BitVec.ofNat W Q) (ModQ.new (BitVec.ofNat W r) (BitVec.ofNat W Q)) = (r : ZMod (BitVec.ofNat W Q).toNat) := by
  rw [toZ, ModQ.new]
  simp only [BitVec.toNat_umod, BitVec.toNat_ofNat]
  rw [Nat.mod_eq_of_lt hQ, Nat.mod_eq_of_lt (hr.trans hQ), Nat.mod_eq_of_lt hr]

/-- Correct tables of numbers give reduced and valid tables of elements. -/
theorem TableCorrect.valid {w W : Nat} {P : Params} (h : TableCorrect w P) (hw : 0 < w) (hW : 2 * w ≤ W) :
    Suits w (BitVec.ofNat W P.q) ∧ (P.tables W).Reduced (BitVec.ofNat W P.q) ∧
      Valid ((P.tables W).toZ (BitVec.ofNat W P.q)) := by
  have hqW : P.q < 2 ^ W := h.q_lt.trans_le (Nat.pow_le_pow_right (by decide) (by omega))
  have hqn : (BitVec.ofNat W P.q).toNat = P.q := by rw [BitVec.toNat_ofNat, Nat.mod_eq_of_lt hqW]
  have hqgt := h.q_gt
  have red : ∀ r, Reduced (BitVec.ofNat W P.q) (ModQ.new (BitVec.ofNat W r) (BitVec.ofNat W P.q)) := by
    intro r
    refine ⟨rfl, ?_⟩
    rw [ModQ.new, hqn]
    simp only [BitVec.toNat_umod, hqn]
    exact Nat.mod_lt _ (by omega)
  have getZ : ∀ (l : List Nat), (∀ r ∈ l, r < P.q) → ∀ k,
      ((l.map fun r => ModQ.new (BitVec.ofNat W r) (BitVec.ofNat W P.q)).map (toZ (BitVec.ofNat W P.q))).getD k 0 =
        ((l.getD k 0 : Nat) : ZMod (BitVec.ofNat W P.q).toNat) := by
    intro l hl k
    simp only [List.getD_eq_getElem?_getD, List.getElem?_map]
    cases hk : l[k]? with
    | none => simp
    | some r =>
      simp only [Option.map_some, Option.getD_some]
      exact toZ_new P.q hqW r (hl r (List.mem_of_getElem? hk))
  have cast_mod : ∀ a b : Nat, a % P.q = b → ((a : Nat) : ZMod (BitVec.ofNat W P.q).toNat) = (b : Nat) := by
    intro a b hab
    rw [← hab, ZMod.natCast_eq_natCast_iff', hqn, Nat.mod_mod]
  have cast_neg : ∀ b : Nat, b < P.q → ((P.q - b : Nat) : ZMod (BitVec.ofNat W P.q).toNat) = -((b : Nat) : ZMod _) := by
    intro b hb
    rw [Nat.cast_sub hb.le, show ((P.q : Nat) : ZMod (BitVec.ofNat W P.q).toNat) = 0 from ?_, zero_sub]
    have := ZMod.natCast_self (BitVec.ofNat W P.q).toNat
    rwa [hqn] at this ⊢
  have rlt : ∀ k, P.roots.getD k 0 < P.q := by
    intro k
    rw [List.getD_eq_getElem?_getD]
    cases hk : P.roots[k]? with
    | none => simpa using by omega
    | some r => exact h.reduced.2.1 r (List.mem_of_getElem? hk)
  refine ⟨⟨hw, by rw [hqn]; exact hqgt, by rw [hqn]; exact h.q_lt, hW⟩, ⟨?_, ?_, red _⟩, ?_⟩
  · intro a ha
    obtain ⟨r, _, rfl⟩ := List.mem_map.1 ha
    exact red r
  · intro a ha
    obtain ⟨r, _, rfl⟩ := List.mem_map.1 ha
    exact red r
  · have gr := getZ P.roots h.reduced.2.1
    have gi := getZ P.rootsInv h.reduced.2.2
    refine ⟨by simpa [Tables.toZ, Params.tables] using h.len, by simpa [Tables.toZ, Params.tables] using h.lenInv,
      fun _ => ?_, fun k hk hk2 => ?_, fun k hk hk2 => ?_, fun k hk hk2 => ?_, ?_⟩
    · show (((P.roots.map _).map _).getD 1 0) ^ 2 = -1
      rw [gr, ← Nat.cast_pow, cast_mod _ _ h.one, cast_neg 1 hqgt, Nat.cast_one]
    · show (((P.roots.map _).map _).getD (2 * k) 0) ^ 2 = ((P.roots.map _).map _).getD k 0
      rw [gr, gr, ← Nat.cast_pow, cast_mod _ _ (h.even k hk hk2)]
    · show (((P.roots.map _).map _).getD (2 * k + 1) 0) ^ 2 = -((P.roots.map _).map _).getD k 0
      rw [gr, gr, ← Nat.cast_pow, cast_mod _ _ (h.odd k hk hk2), cast_neg _ (rlt k)]
    · show ((P.roots.map _).map _).getD k 0 * ((P.rootsInv.map _).map _).getD k 0 = 1
      rw [gr, gi, ← Nat.cast_mul, cast_mod _ _ (h.inv k hk hk2), Nat.cast_one]
    · show toZ _ (ModQ.new _ _) * 2 ^ P.log = 1
      rw [toZ_new P.q hqW _ h.reduced.1]
      have := cast_mod _ _ h.ninv
      push_cast at this
      exact this

end Verif.Ntt
