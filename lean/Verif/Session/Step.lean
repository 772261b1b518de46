import Verif.Session.MaskCalls
/-
Lemmas on one call of an engine.
-/
namespace Verif.Session
open Verif.Random Verif.Engine
open Verif.Csprng (Build)
variable {w : Nat}

theorem local_secret (c : SecretCall w) : Local c.exec := by
  intro g o g' h
  cases c with
  | lweKey dim =>
    obtain ⟨⟨a, g1⟩, e1, e2⟩ := Option.map_eq_some_iff.1 h
    simp only [Prod.mk.injEq] at e2
    obtain ⟨rfl, rfl⟩ := e2
    obtain ⟨l, k⟩ := local_rep (local_binary w) _ _ _ _ e1
    exact ⟨l, fun t ht => by simp only [SecretCall.exec, k t ht, Option.map_some]⟩
  | glweKey dim N =>
    obtain ⟨⟨a, g1⟩, e1, e2⟩ := Option.map_eq_some_iff.1 h
    simp only [Prod.mk.injEq] at e2
    obtain ⟨rfl, rfl⟩ := e2
    obtain ⟨l, k⟩ := local_rep (local_binary w) _ _ _ _ e1
    exact ⟨l, fun t ht => by simp only [SecretCall.exec, k t ht, Option.map_some]⟩
  | publicEncrypt pk out msg =>
    simp only [SecretCall.exec, Engine.publicEncrypt] at h ⊢
    by_cases hd : pk.dim ≠ Lwe.lweDim out
    · rw [if_pos hd] at h; cases h
    · simp only [if_neg hd] at h ⊢
      cases ho : Lwe.fillWithTrivialEncryption out msg with
      | none => rw [ho] at h; cases h
      | some o1 =>
        simp only [ho] at h ⊢
        cases hr : rep pk.count (uniformBinary w) g with
        | none => rw [hr] at h; cases h
        | some r =>
          simp only [hr, Option.some.injEq, Prod.mk.injEq] at h
          obtain ⟨rfl, rfl⟩ := h
          obtain ⟨l, k⟩ := local_rep (local_binary w) _ _ _ _ hr
          exact ⟨l, fun t ht => by rw [k t ht]⟩

/-- What a successful secret call does. -/
theorem secret_run_ok {c : SecretCall w} {g g' : Src} {o : Out} (h : c.run g = .ok (o, g')) :
    c.check = .ok () ∧ c.exec g = some (o, g') := by
  simp only [SecretCall.run] at h
  cases hc : c.check with
  | err e => rw [hc] at h; cases h
  | panic => rw [hc] at h; cases h
  | ok u =>
    rw [hc] at h
    cases he : c.exec g with
    | none => rw [he] at h; cases h
    | some r =>
      simp only [he, Res.ok.injEq] at h
      exact ⟨rfl, by rw [h]⟩

theorem enc_run_ok {bld : Build} {c : EncCall w} {g g' : EncGen} {o : Cts w} (h : c.run bld g = .ok (o, g')) :
    c.check bld = .ok () ∧ ∃ d, c.exec bld g = some (d, g') ∧ o = ⟨c.shape.1, c.shape.2, d⟩ := by
  simp only [EncCall.run] at h
  cases hc : c.check bld with
  | err e => rw [hc] at h; cases h
  | panic => rw [hc] at h; cases h
  | ok u =>
    rw [hc] at h
    cases he : c.exec bld g with
    | none => rw [he] at h; cases h
    | some r =>
      simp only [he, Res.ok.injEq, Prod.mk.injEq] at h
      exact ⟨rfl, r.1, by rw [← h.2], h.1.symm⟩

theorem seeded_run_ok {T : BitVec 128 → Nat → BitVec 8} {bld : Build} {c : SeededCall w} {g g' : Src} {o : Seeded w}
    (h : c.run T bld g = .ok (o, g')) :
    c.check bld = .ok () ∧ ∃ s g1 s' bodies e, seed g = some (s, g1) ∧ seed g1 = some (s', g') ∧
      c.exec { mask := newSrc T s, noise := newSrc T s' } = some (bodies, e) ∧
      o = ⟨s, c.shape.1, c.shape.2, bodies⟩ := by
  simp only [SeededCall.run] at h
  cases hc : c.check bld with
  | err e => rw [hc] at h; cases h
  | panic => rw [hc] at h; cases h
  | ok u =>
    rw [hc] at h
    cases h1 : seed g with
    | none => rw [h1] at h; cases h
    | some r =>
      simp only [h1, newEncGen] at h
      cases h2 : seed r.2 with
      | none => rw [h2] at h; cases h
      | some r' =>
        simp only [h2] at h
        cases he : c.exec { mask := newSrc T r.1, noise := newSrc T r'.1 } with
        | none => rw [he] at h; cases h
        | some q =>
          simp only [he, Res.ok.injEq, Prod.mk.injEq] at h
          exact ⟨rfl, r.1, r.2, r'.1, q.1, q.2, rfl, by rw [h2, ← h.2], he, h.1.symm⟩

theorem Later.self (g g' : Src) (h : Later g g') : g' = { g with pos := g'.pos } ∧ g.pos ≤ g'.pos := ⟨h.eq, h.le⟩

theorem advances_refl (e : Engine) : e.Advances e :=
  ⟨⟨rfl, Nat.le_refl _⟩, ⟨rfl, Nat.le_refl _⟩, ⟨rfl, Nat.le_refl _⟩, ⟨rfl, Nat.le_refl _⟩⟩

private theorem adv_trans {a b c : Src} (h : b = { a with pos := b.pos } ∧ a.pos ≤ b.pos)
    (k : c = { b with pos := c.pos } ∧ b.pos ≤ c.pos) : c = { a with pos := c.pos } ∧ a.pos ≤ c.pos := by
  refine ⟨?_, Nat.le_trans h.2 k.2⟩
  rw [k.1, h.1]

theorem Engine.Advances.trans {a b c : Engine} (h : a.Advances b) (k : b.Advances c) : a.Advances c :=
  ⟨adv_trans h.secret k.secret, adv_trans h.mask k.mask, adv_trans h.noise k.noise, adv_trans h.seeder k.seeder⟩

/-- The case analysis of a step. -/
theorem step_cases {T : BitVec 128 → Nat → BitVec 8} {bld : Build} {c : Call} {e e' : Engine} {o : Out}
    (h : step T bld c e = some (o, e')) :
    (∃ x, o = .err x ∧ e' = e) ∨
    (∃ w, ∃ s : SecretCall w, c = .secret s ∧ ∃ g, s.run e.secret = .ok (o, g) ∧ e' = { e with secret := g }) ∨
    (∃ w, ∃ s : EncCall w, c = .enc s ∧ ∃ x g, s.run bld e.enc = .ok (x, g) ∧ o = .cts x ∧ e' = { e with enc := g }) ∨
    (∃ w, ∃ s : SeededCall w, c = .seeded s ∧ ∃ x g, s.run T bld e.seeder = .ok (x, g) ∧ o = .seeded x ∧
      e' = { e with seeder := g }) := by
  cases c with
  | secret s =>
    simp only [step] at h
    split at h
    · rename_i o1 g h1
      simp only [Option.some.injEq, Prod.mk.injEq] at h
      obtain ⟨rfl, rfl⟩ := h
      exact .inr (.inl ⟨_, s, rfl, g, h1, rfl⟩)
    · simp only [Option.some.injEq, Prod.mk.injEq] at h
      exact .inl ⟨_, h.1.symm, h.2.symm⟩
    · cases h
  | enc s =>
    simp only [step] at h
    split at h
    · rename_i o1 g h1
      simp only [Option.some.injEq, Prod.mk.injEq] at h
      obtain ⟨rfl, rfl⟩ := h
      exact .inr (.inr (.inl ⟨_, s, rfl, o1, g, h1, rfl, rfl⟩))
    · simp only [Option.some.injEq, Prod.mk.injEq] at h
      exact .inl ⟨_, h.1.symm, h.2.symm⟩
    · cases h
  | seeded s =>
    simp only [step] at h
    split at h
    · rename_i o1 g h1
      simp only [Option.some.injEq, Prod.mk.injEq] at h
      obtain ⟨rfl, rfl⟩ := h
      exact .inr (.inr (.inr ⟨_, s, rfl, o1, g, h1, rfl, rfl⟩))
    · simp only [Option.some.injEq, Prod.mk.injEq] at h
      exact .inl ⟨_, h.1.symm, h.2.symm⟩
    · cases h

/-- The error of a call depends on its arguments only. -/
theorem step_err {T : BitVec 128 → Nat → BitVec 8} {bld : Build} {c : Call} {e e' : Engine} {x : EErr}
    (h : step T bld c e = some (.err x, e')) : ∀ e2, step T bld c e2 = some (.err x, e2) := by
  intro e2
  cases c with
  | secret s =>
    simp only [step] at h ⊢
    have : s.check = .err x := by
      cases hc : s.check with
      | err y =>
        simp only [SecretCall.run, hc, Option.some.injEq, Prod.mk.injEq, Out.err.injEq] at h
        rw [h.1]
      | panic => simp only [SecretCall.run, hc] at h; cases h
      | ok u =>
        exfalso
        split at h
        · rename_i o1 g h1
          simp only [Option.some.injEq, Prod.mk.injEq] at h
          obtain ⟨_, h2⟩ := secret_run_ok h1
          rw [h.1] at h2
          cases s with
          | lweKey dim =>
            simp only [SecretCall.exec, Option.map_eq_some_iff, Prod.mk.injEq, reduceCtorEq, false_and, and_false,
              exists_false] at h2
          | glweKey dim N =>
            simp only [SecretCall.exec, Option.map_eq_some_iff, Prod.mk.injEq, reduceCtorEq, false_and, and_false,
              exists_false] at h2
          | publicEncrypt pk out msg =>
            simp only [SecretCall.exec] at h2
            split at h2
            · simp only [Option.some.injEq, Prod.mk.injEq, reduceCtorEq, false_and] at h2
            · cases h2
        · rename_i y h1
          simp only [SecretCall.run, hc] at h1
          split at h1 <;> cases h1
        · cases h
    simp only [SecretCall.run, this]
  | enc s =>
    simp only [step] at h ⊢
    have : s.check bld = .err x := by
      cases hc : s.check bld with
      | err y =>
        simp only [EncCall.run, hc, Option.some.injEq, Prod.mk.injEq, Out.err.injEq] at h
        rw [h.1]
      | panic => simp only [EncCall.run, hc] at h; cases h
      | ok u =>
        exfalso
        simp only [EncCall.run, hc] at h
        cases hx : s.exec bld e.enc with
        | none => rw [hx] at h; cases h
        | some r => simp only [hx, Option.some.injEq, Prod.mk.injEq, reduceCtorEq, false_and] at h
    simp only [EncCall.run, this]
  | seeded s =>
    simp only [step] at h ⊢
    have : s.check bld = .err x := by
      cases hc : s.check bld with
      | err y =>
        simp only [SeededCall.run, hc, Option.some.injEq, Prod.mk.injEq, Out.err.injEq] at h
        rw [h.1]
      | panic => simp only [SeededCall.run, hc] at h; cases h
      | ok u =>
        exfalso
        simp only [SeededCall.run, hc] at h
        cases h1 : seed e.seeder with
        | none => rw [h1] at h; cases h
        | some r =>
          simp only [h1] at h
          cases h2 : newEncGen T r.1 r.2 with
          | none => rw [h2] at h; cases h
          | some q =>
            simp only [h2] at h
            cases h3 : s.exec q.1 with
            | none => rw [h3] at h; cases h
            | some v => simp only [h3, Option.some.injEq, Prod.mk.injEq, reduceCtorEq, false_and] at h
    simp only [SeededCall.run, this]

theorem local_seed : Local seed := local_uniform 128

theorem seed_eq (g : Src) (h : g.pos ≤ g.bound) :
    seed g = if g.pos + 16 ≤ g.bound then some (wordAt 128 g.table g.pos, g.skip 16) else none :=
  uniform_eq 128 g h

/-! ### Bytes -/

theorem leValue_succ (t : Nat → BitVec 8) (p n : Nat) :
    leValue t p (n + 1) = leValue t p n + (t (p + n)).toNat * 256 ^ n := by
  simp only [leValue, Finset.sum_range_succ]

theorem leValue_lt (t : Nat → BitVec 8) (p : Nat) : ∀ n, leValue t p n < 256 ^ n
  | 0 => by simp [leValue]
  | n + 1 => by
    have h := leValue_lt t p n
    have hb : (t (p + n)).toNat < 256 := (t (p + n)).isLt
    have h2 : (t (p + n)).toNat * 256 ^ n ≤ 255 * 256 ^ n := Nat.mul_le_mul_right _ (by omega)
    rw [leValue_succ, Nat.pow_succ]
    omega

theorem leValue_byte (t : Nat → BitVec 8) (p : Nat) : ∀ n i, i < n → leValue t p n / 256 ^ i % 256 = (t (p + i)).toNat
  | n + 1, i, hi => by
    rw [leValue_succ]
    by_cases h : i = n
    · subst h
      rw [Nat.add_mul_div_right _ _ (Nat.pow_pos (by omega)), Nat.div_eq_of_lt (leValue_lt t p i), Nat.zero_add,
        Nat.mod_eq_of_lt (t (p + i)).isLt]
    · have hin : i < n := by omega
      have e : 256 ^ n = 256 ^ i * (256 * 256 ^ (n - i - 1)) := by
        rw [← Nat.pow_succ', ← Nat.pow_add]; congr 1; omega
      rw [e, ← Nat.mul_assoc, Nat.mul_comm (t (p + n)).toNat, Nat.mul_assoc,
        Nat.add_mul_div_left _ _ (Nat.pow_pos (by omega)), ← Nat.mul_assoc, Nat.mul_comm _ 256, Nat.mul_assoc,
        Nat.add_mul_mod_self_left]
      exact leValue_byte t p n i hin

theorem leBytes_wordAt (t : Nat → BitVec 8) (p : Nat) :
    leBytes (wordAt w t p) = (List.range (w / 8)).map fun i => t (p + i) := by
  apply List.map_congr_left
  intro i hi
  have hi := List.mem_range.1 hi
  have hlt : leValue t p (w / 8) < 2 ^ w := by
    refine Nat.lt_of_lt_of_le (leValue_lt t p _) ?_
    rw [show (256 : Nat) = 2 ^ 8 from rfl, ← Nat.pow_mul]
    exact Nat.pow_le_pow_right (by omega) (by omega)
  apply BitVec.eq_of_toNat_eq
  rw [wordAt, BitVec.toNat_ofNat, BitVec.toNat_ofNat, Nat.mod_eq_of_lt hlt]
  exact leValue_byte t p _ i hi

theorem bytesBetween_append (t : Nat → BitVec 8) (p q r : Nat) (h1 : p ≤ q) (h2 : q ≤ r) :
    bytesBetween t p r = bytesBetween t p q ++ bytesBetween t q r := by
  simp only [bytesBetween]
  rw [show r - p = (q - p) + (r - q) by omega, List.range_add, List.map_append, List.map_map]
  congr 1
  apply List.map_congr_left
  intro i _
  simp only [Function.comp]
  congr 1
  omega

theorem streamWords_bytes (g : Src) : ∀ m, (streamWords w g m).flatMap leBytes =
    bytesBetween g.table g.pos (g.pos + m * (w / 8))
  | 0 => by simp [streamWords, bytesBetween]
  | m + 1 => by
    have e := bytesBetween_append g.table g.pos (g.pos + m * (w / 8)) (g.pos + m * (w / 8) + w / 8) (by omega) (by omega)
    rw [streamWords_add, List.flatMap_append, streamWords_bytes g m, Nat.add_mul, Nat.one_mul, ← Nat.add_assoc, e]
    congr 1
    simp only [streamWords, List.range_one, List.map_cons, List.map_nil, List.flatMap_cons, List.flatMap_nil,
      List.append_nil, Nat.zero_mul, Nat.add_zero, leBytes_wordAt, bytesBetween, Nat.add_sub_cancel_left]
    rfl

end Verif.Session
