import Verif.Serde.Model
import Verif.Csprng.Invariant
/- Lemmas on the binary format: round trips, stability of parsing under extension of the input. -/
namespace Verif.Serde

open Verif

theorem leBytes_length : ∀ n v : Nat, (leBytes n v).length = n
  | 0, _ => rfl
  | n + 1, v => by simp [leBytes, leBytes_length n]

theorem ofLe_leBytes : ∀ n v : Nat, v < 2 ^ (8 * n) → ofLe (leBytes n v) = v
  | 0, v, h => by simp at h; simp [leBytes, ofLe, h]
  | n + 1, v, h => by
    have h1 : v / 256 < 2 ^ (8 * n) := by
      have : 2 ^ (8 * (n + 1)) = 2 ^ (8 * n) * 256 := by
        rw [show 8 * (n + 1) = 8 * n + 8 by omega, pow_add]; rfl
      rw [this] at h
      exact Nat.div_lt_of_lt_mul (by rw [Nat.mul_comm]; exact h)
    simp only [leBytes, ofLe, ofLe_leBytes n _ h1, BitVec.toNat_ofNat]
    omega

theorem ofLe_lt : ∀ bs : List Byte, ofLe bs < 2 ^ (8 * bs.length)
  | [] => by simp [ofLe]
  | b :: bs => by
    have h := ofLe_lt bs
    have hb := b.isLt
    have : 2 ^ (8 * (b :: bs).length) = 2 ^ (8 * bs.length) * 256 := by
      rw [List.length_cons, show 8 * (bs.length + 1) = 8 * bs.length + 8 by omega, pow_add]; rfl
    rw [this]
    simp only [ofLe]
    omega

theorem takeBytes_append (x r : List Byte) : takeBytes x.length (x ++ r) = some (x, r) := by
  simp [takeBytes]

theorem takeBytes_append' {n : Nat} (x r : List Byte) (h : x.length = n) :
    takeBytes n (x ++ r) = some (x, r) := by
  subst h; exact takeBytes_append x r

theorem takeBytes_le (n v : Nat) (r : List Byte) :
    takeBytes n (leBytes n v ++ r) = some (leBytes n v, r) :=
  takeBytes_append' _ _ (leBytes_length n v)

/-- A reader whose result does not depend on what follows the bytes it consumed. -/
def Stable {α : Type} (f : List Byte → Option (α × List Byte)) : Prop :=
  ∀ bs x r c, f bs = some (x, r) → f (bs ++ c) = some (x, r ++ c)

theorem takeBytes_stable (n : Nat) : Stable (takeBytes n) := by
  intro bs x r c h
  simp only [takeBytes] at h ⊢
  split at h
  · exact absurd h (by simp)
  · rename_i hl
    rw [if_neg (by simp; omega)]
    simp only [Option.some.injEq, Prod.mk.injEq] at h ⊢
    obtain ⟨rfl, rfl⟩ := h
    constructor
    · rw [List.take_append_of_le_length (by omega)]
    · rw [List.drop_append_of_le_length (by omega)]

theorem decN_stable {α : Type} {f : List Byte → Option (α × List Byte)} (hf : Stable f) :
    ∀ n, Stable (decN f n)
  | 0 => by
    intro bs x r c h
    simp only [decN, Option.some.injEq, Prod.mk.injEq] at h ⊢
    obtain ⟨rfl, rfl⟩ := h
    exact ⟨rfl, rfl⟩
  | n + 1 => by
    intro bs x r c h
    simp only [decN] at h ⊢
    cases h1 : f bs with
    | none => simp [h1] at h
    | some p =>
      obtain ⟨a, r1⟩ := p
      simp only [h1] at h
      cases h2 : decN f n r1 with
      | none => simp [h2] at h
      | some q =>
        obtain ⟨as, r2⟩ := q
        simp only [h2, Option.some.injEq, Prod.mk.injEq] at h
        obtain ⟨rfl, rfl⟩ := h
        simp only [hf _ _ _ c h1, decN_stable hf n _ _ _ c h2]

theorem dec_stable : ∀ s : Schema, Stable (dec s)
  | .word n => by
    intro bs x r c h
    simp only [dec] at h ⊢
    cases h1 : takeBytes n bs with
    | none => simp [h1] at h
    | some p =>
      obtain ⟨a, r1⟩ := p
      simp only [h1] at h
      cases h
      simp only [takeBytes_stable _ _ _ _ c h1]
  | .bool => by
    intro bs x r c h
    simp only [dec] at h ⊢
    cases h1 : takeBytes 1 bs with
    | none => simp [h1] at h
    | some p =>
      obtain ⟨a, r1⟩ := p
      simp only [h1] at h
      simp only [takeBytes_stable _ _ _ _ c h1]
      split at h
      · rename_i h0
        rw [if_pos h0]
        cases h
        rfl
      · rename_i h0
        rw [if_neg h0]
        split at h
        · rename_i h1'
          rw [if_pos h1']
          cases h
          rfl
        · exact absurd h (by simp)
  | .unit => by
    intro bs x r c h
    simp only [dec] at h ⊢
    cases h
    rfl
  | .seq s => by
    intro bs x r c h
    simp only [dec] at h ⊢
    cases h1 : takeBytes 8 bs with
    | none => simp [h1] at h
    | some p =>
      obtain ⟨a, r1⟩ := p
      simp only [h1] at h
      simp only [takeBytes_stable _ _ _ _ c h1]
      exact decN_stable (dec_stable s) _ _ _ _ c h
  | .pair a b => by
    intro bs x r c h
    simp only [dec] at h ⊢
    cases h1 : dec a bs with
    | none => simp [h1] at h
    | some p =>
      obtain ⟨y, r1⟩ := p
      simp only [h1] at h
      cases h2 : dec b r1 with
      | none => simp [h2] at h
      | some q =>
        obtain ⟨z, r2⟩ := q
        simp only [h2] at h
        cases h
        simp only [dec_stable a _ _ _ c h1, dec_stable b _ _ _ c h2]

/-- Every `Vec` of the value has a length a `usize` can hold. -/
def Fits : (s : Schema) → Val s → Prop
  | .word _, _ => True
  | .bool, _ => True
  | .unit, _ => True
  | .seq s, vs =>
    let l : List (Val s) := vs
    l.length < 2 ^ 64 ∧ ∀ v ∈ l, Fits s v
  | .pair a b, v => Fits a v.1 ∧ Fits b v.2

theorem decN_flatMap {α : Type} {f : List Byte → Option (α × List Byte)} {e : α → List Byte} :
    ∀ (l : List α) (c : List Byte), (∀ x ∈ l, ∀ c, f (e x ++ c) = some (x, c)) →
      decN f l.length (l.flatMap e ++ c) = some (l, c)
  | [], c, _ => by simp [decN]
  | x :: l, c, h => by
    simp only [List.length_cons, decN, List.flatMap_cons, List.append_assoc]
    rw [h x (by simp)]
    simp only [decN_flatMap l c (fun y hy => h y (by simp [hy]))]

theorem dec_enc : ∀ (s : Schema) (x : Val s) (c : List Byte), Fits s x →
    dec s (enc s x ++ c) = some (x, c)
  | .word n, x, c, _ => by
    have h := BitVec.isLt (w := 8 * n) x
    simp only [dec, enc, takeBytes_le, ofLe_leBytes _ _ h]
    exact congrArg (fun v => some (v, c)) (BitVec.eq_of_toNat_eq (x := BitVec.ofNat (8 * n) (BitVec.toNat (w := 8 * n) x))
      (y := x) (by rw [BitVec.toNat_ofNat]; exact Nat.mod_eq_of_lt h))
  | .bool, x, c, _ => by
    have h : ∀ b : Bool, dec .bool (enc .bool b ++ c) = some (b, c) := by
      intro b
      cases b <;> rfl
    exact h x
  | .unit, x, c, _ => rfl
  | .seq s, x, c, h => by
    obtain ⟨hl, hv⟩ := h
    simp only [dec, enc, List.append_assoc, takeBytes_le]
    rw [ofLe_leBytes _ _ (by simpa using hl)]
    exact decN_flatMap _ c (fun v hx c => dec_enc s v c (hv v hx))
  | .pair a b, x, c, h => by
    simp only [dec, enc, List.append_assoc, dec_enc a x.1 _ h.1, dec_enc b x.2 _ h.2]
    rfl

theorem leBytes_ofLe : ∀ bs : List Byte, leBytes bs.length (ofLe bs) = bs
  | [] => rfl
  | b :: bs => by
    have hb := b.isLt
    have h1 : (b.toNat + 256 * ofLe bs) / 256 = ofLe bs := by omega
    have h2 : BitVec.ofNat 8 (b.toNat + 256 * ofLe bs) = b := by
      apply BitVec.eq_of_toNat_eq
      rw [BitVec.toNat_ofNat]
      omega
    simp only [List.length_cons, leBytes, ofLe, h1, h2, leBytes_ofLe bs]

theorem takeBytes_eq {n : Nat} {bs x r : List Byte} (h : takeBytes n bs = some (x, r)) :
    bs = x ++ r ∧ x.length = n := by
  simp only [takeBytes] at h
  split at h
  · exact absurd h (by simp)
  · simp only [Option.some.injEq, Prod.mk.injEq] at h
    obtain ⟨rfl, rfl⟩ := h
    exact ⟨(List.take_append_drop n bs).symm, by simp; omega⟩

theorem decN_canonical {α : Type} {f : List Byte → Option (α × List Byte)} {e : α → List Byte}
    (hf : ∀ bs x r, f bs = some (x, r) → bs = e x ++ r) :
    ∀ (n : Nat) (bs : List Byte) (l : List α) (r : List Byte), decN f n bs = some (l, r) →
      bs = l.flatMap e ++ r ∧ l.length = n
  | 0, bs, l, r, h => by
    simp only [decN, Option.some.injEq, Prod.mk.injEq] at h
    obtain ⟨rfl, rfl⟩ := h
    simp
  | n + 1, bs, l, r, h => by
    simp only [decN] at h
    cases h1 : f bs with
    | none => simp [h1] at h
    | some p =>
      obtain ⟨a, r1⟩ := p
      simp only [h1] at h
      cases h2 : decN f n r1 with
      | none => simp [h2] at h
      | some q =>
        obtain ⟨as, r2⟩ := q
        simp only [h2, Option.some.injEq, Prod.mk.injEq] at h
        obtain ⟨rfl, rfl⟩ := h
        obtain ⟨e2, hl⟩ := decN_canonical hf n _ _ _ h2
        constructor
        · rw [hf _ _ _ h1, e2]; simp
        · simp [hl]

/-- What is parsed is the serialization of the result. -/
theorem dec_canonical : ∀ (s : Schema) (bs : List Byte) (x : Val s) (r : List Byte),
    dec s bs = some (x, r) → bs = enc s x ++ r
  | .word n, bs, x, r, h => by
    simp only [dec] at h
    cases h1 : takeBytes n bs with
    | none => simp [h1] at h
    | some p =>
      obtain ⟨a, r1⟩ := p
      simp only [h1] at h
      cases h
      obtain ⟨rfl, hl⟩ := takeBytes_eq h1
      subst hl
      have := ofLe_lt a
      simp only [enc]
      rw [show BitVec.toNat (w := 8 * a.length) (BitVec.ofNat (8 * a.length) (ofLe a)) = ofLe a from by
        rw [BitVec.toNat_ofNat]; exact Nat.mod_eq_of_lt this, leBytes_ofLe]
  | .bool, bs, x, r, h => by
    simp only [dec] at h
    cases h1 : takeBytes 1 bs with
    | none => simp [h1] at h
    | some p =>
      obtain ⟨a, r1⟩ := p
      simp only [h1] at h
      obtain ⟨rfl, hl⟩ := takeBytes_eq h1
      obtain ⟨b, rfl⟩ := List.length_eq_one_iff.mp hl
      have hb : ofLe [b] = b.toNat := by simp [ofLe]
      rw [hb] at h
      split at h
      · rename_i h0
        cases h
        have : b = 0 := BitVec.eq_of_toNat_eq h0
        subst this; rfl
      · split at h
        · rename_i h0
          cases h
          have : b = 1 := BitVec.eq_of_toNat_eq h0
          subst this; rfl
        · exact absurd h (by simp)
  | .unit, bs, x, r, h => by
    simp only [dec] at h
    cases h
    rfl
  | .seq s, bs, x, r, h => by
    simp only [dec] at h
    cases h1 : takeBytes 8 bs with
    | none => simp [h1] at h
    | some p =>
      obtain ⟨a, r1⟩ := p
      simp only [h1] at h
      obtain ⟨rfl, hl⟩ := takeBytes_eq h1
      obtain ⟨e2, hn⟩ := decN_canonical (dec_canonical s) _ _ _ _ h
      simp only [enc]
      rw [e2, show List.length (α := Val s) x = ofLe a from hn, ← hl, leBytes_ofLe,
        List.append_assoc]
  | .pair a b, bs, x, r, h => by
    simp only [dec] at h
    cases h1 : dec a bs with
    | none => simp [h1] at h
    | some p =>
      obtain ⟨y, r1⟩ := p
      simp only [h1] at h
      cases h2 : dec b r1 with
      | none => simp [h2] at h
      | some q =>
        obtain ⟨z, r2⟩ := q
        simp only [h2] at h
        cases h
        rw [dec_canonical a _ _ _ h1, dec_canonical b _ _ _ h2]
        simp only [enc, List.append_assoc]

/-! ### Fourier polynomials -/

theorem fillChunks_stable (P : PlanCodec) (n : Nat) (hP : Stable (P.dec n)) :
    ∀ k left, Stable (fillChunks P n k left)
  | 0, left => by
    intro bs x r c h
    simp only [fillChunks, Option.some.injEq, Prod.mk.injEq] at h ⊢
    obtain ⟨rfl, rfl⟩ := h
    exact ⟨rfl, rfl⟩
  | k + 1, 0 => by
    intro bs x r c h
    simp [fillChunks] at h
  | k + 1, left + 1 => by
    intro bs x r c h
    simp only [fillChunks] at h ⊢
    cases h1 : P.dec n bs with
    | none => simp [h1] at h
    | some p =>
      obtain ⟨a, r1⟩ := p
      simp only [h1] at h
      cases h2 : fillChunks P n k left r1 with
      | none => simp [h2] at h
      | some q =>
        obtain ⟨as, r2⟩ := q
        simp only [h2, Option.some.injEq, Prod.mk.injEq] at h
        obtain ⟨rfl, rfl⟩ := h
        simp only [hP _ _ _ c h1, fillChunks_stable P n hP k left _ _ _ c h2]

theorem fillChunks_flatMap (P : PlanCodec) (n : Nat)
    (hP : ∀ buf c, buf.length = n → P.dec n (P.enc n buf ++ c) = some (buf, c)) :
    ∀ (l : List (List C64)) (left : Nat) (c : List Byte), (∀ b ∈ l, b.length = n) →
      l.length ≤ left →
      fillChunks P n l.length left (l.flatMap (P.enc n) ++ c) = some (l.flatten, c)
  | [], left, c, _, _ => by simp [fillChunks]
  | b :: l, 0, c, _, h => by simp at h
  | b :: l, left + 1, c, hb, h => by
    simp only [List.length_cons, fillChunks, List.flatMap_cons, List.append_assoc]
    rw [hP b _ (hb b (by simp))]
    simp only [fillChunks_flatMap P n hP l left c (fun x hx => hb x (by simp [hx]))
      (by simp at h; omega), List.flatten_cons]

/-- Reading the whole header. -/
theorem FourierList.dec_stable (P : PlanCodec) (hP : ∀ n, Stable (P.dec n)) (bld : Csprng.Build)
    (bs c : List Byte) :
    (∀ x r, FourierList.dec P bld bs = .ok (x, r) →
      FourierList.dec P bld (bs ++ c) = .ok (x, r ++ c)) ∧
    (FourierList.dec P bld bs = .panic → FourierList.dec P bld (bs ++ c) = .panic) := by
  simp only [FourierList.dec]
  cases h1 : takeBytes 8 bs with
  | none => simp
  | some p =>
    obtain ⟨len, r1⟩ := p
    simp only [takeBytes_stable _ _ _ _ c h1]
    cases hlen : ofLe len with
    | zero => simp
    | succ len =>
      cases h2 : takeBytes 8 r1 with
      | none => simp
      | some p =>
        obtain ⟨N, r2⟩ := p
        simp only [takeBytes_stable _ _ _ _ c h2]
        cases len with
        | zero => simp
        | succ left =>
          cases h3 : takeBytes 8 r2 with
          | none => simp
          | some p =>
            obtain ⟨count, r3⟩ := p
            simp only [takeBytes_stable _ _ _ _ c h3]
            cases hm : Csprng.Build.mulUsize bld (ofLe N / 2) (ofLe count) with
            | none => simp
            | some total =>
              simp only
              by_cases hc : ofLe count = 0
              · simp only [if_pos hc]
                refine ⟨fun x r h => ?_, fun h => by simp at h⟩
                cases h; rfl
              simp only [if_neg hc]
              by_cases hp : (!P.planOk (ofLe N / 2)) = true
              · simp only [if_pos hp]
                exact ⟨fun x r h => by simp at h, fun h => trivial⟩
              simp only [if_neg hp]
              by_cases ht : total / ofLe count = 0 ∨ total / ofLe count ≠ ofLe N / 2
              · simp only [if_pos ht]
                exact ⟨fun x r h => by simp at h, fun h => trivial⟩
              simp only [if_neg ht]
              cases hf : fillChunks P (ofLe N / 2) (ofLe count) left r3 with
              | none => simp
              | some q =>
                obtain ⟨data, r4⟩ := q
                simp only [fillChunks_stable P _ (hP _) _ _ _ _ _ c hf]
                refine ⟨fun x r h => ?_, fun h => by simp at h⟩
                cases h; rfl

end Verif.Serde
