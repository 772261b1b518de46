import Verif.Session.DecryptSpec
import Verif.Session.Props
import Verif.Engine.ChecksProps
import Verif.Engine.VecLemmas
import Verif.Lwe.Props
import Verif.Lwe.Props3
import Verif.Glwe.Props
/-
Lemmas for C95.
-/
namespace Verif.Session
open Verif.Random Verif.Engine
open Verif.Csprng (Build)
variable {w : Nat}

/-! ### Checks -/

theorem checks_cons_ok {r : Res EErr Unit} {rs : List (Res EErr Unit)} (h : checks (r :: rs) = .ok ()) :
    r = .ok () ∧ checks rs = .ok () := by
  cases r with
  | err e => cases h
  | panic => cases h
  | ok u => exact ⟨rfl, h⟩

theorem bad_ok {b : Bool} {e : EErr} (h : bad b e = .ok ()) : b = false := by
  cases b with
  | false => rfl
  | true => cases h

theorem afterCheck_ok {α : Type} {o : Option α} {x : α} (h : o = some x) :
    afterCheck (.ok ()) o = .ok x := by rw [h]; rfl

/-! ### Histories -/

theorem run_get (T : BitVec 128 → Nat → BitVec 8) (bld : Build) : ∀ (cs : List Call) (e e' : Engine) (os : List Out)
    (i : Nat) (c : Call), run T bld cs e = some (os, e') → cs[i]? = some c →
    ∃ o e1 e2, os[i]? = some o ∧ step T bld c e1 = some (o, e2)
  | [], _, _, _, i, _, _, hc => by simp at hc
  | a :: cs, e, e', os, i, c, h, hc => by
    obtain ⟨o, e1, os', h1, h2, rfl⟩ := run_cons T bld h
    cases i with
    | zero =>
      simp only [List.getElem?_cons_zero, Option.some.injEq] at hc
      subst hc
      exact ⟨o, e, e1, rfl, h1⟩
    | succ i => exact run_get T bld cs e1 e' os' i c h2 (by simpa using hc)

theorem step_enc {T : BitVec 128 → Nat → BitVec 8} {bld : Build} {c : EncCall w} {e e' : Engine} {x : Cts w}
    (h : step T bld (.enc c) e = some (.cts x, e')) : c.run bld e.enc = .ok (x, e'.enc) := by
  simp only [step] at h
  split at h
  · rename_i o g hs
    simp only [Option.some.injEq, Prod.mk.injEq, Out.cts.injEq, heq_eq_eq, true_and] at h
    obtain ⟨rfl, rfl⟩ := h
    exact hs
  · cases h
  · cases h

theorem step_seeded {T : BitVec 128 → Nat → BitVec 8} {bld : Build} {c : SeededCall w} {e e' : Engine} {x : Seeded w}
    (h : step T bld (.seeded c) e = some (.seeded x, e')) : c.run T bld e.seeder = .ok (x, e'.seeder) := by
  simp only [step] at h
  split at h
  · rename_i o g hs
    simp only [Option.some.injEq, Prod.mk.injEq, Out.seeded.injEq, heq_eq_eq, true_and] at h
    obtain ⟨rfl, rfl⟩ := h
    exact hs
  · cases h
  · cases h

/-! ### LWE decryption -/

theorem decryptWord_eq {bld : Build} {key ct : List (BitVec w)} (hk : bld = .release ∨ Lwe.BinaryKey key)
    (hf : Lwe.Fits key ct) : decryptWord bld key ct = some (Lwe.phase key ct) := by
  have h := Lwe.decryptLwe_eq hf
  simp only [Lwe.decryptLwe] at h
  simp only [decryptWord]
  cases hl : ct.getLast? with
  | none => rw [hl] at h; cases h
  | some b =>
    rw [hl] at h
    simp only [Option.some.injEq] at h
    have hm : multisumIn bld ct.dropLast key = some (Lwe.multisum ct.dropLast key) := by
      cases bld with
      | release => rfl
      | debug =>
        have hb : Lwe.BinaryKey key := by
          rcases hk with h | h
          · cases h
          · exact h
        simp only [multisumIn]
        rw [if_pos (by rw [List.length_dropLast, hf]; rfl)]
        exact Lwe.C12_debug_binary _ _ hb
    simp only [hm, Option.map_some, h]

theorem decryptWords_eq {bld : Build} {key : List (BitVec w)} (hk : bld = .release ∨ Lwe.BinaryKey key) :
    ∀ (cts : List (List (BitVec w))) (out : List (BitVec w)), out.length = cts.length →
    (∀ c ∈ cts, Lwe.Fits key c) → decryptWords bld key cts out = some (cts.map (Lwe.phase key))
  | [], out, hl, _ => by
    have : out = [] := List.length_eq_zero_iff.1 hl
    rw [this]; rfl
  | c :: cts, [], hl, _ => by simp at hl
  | c :: cts, o :: os, hl, hf => by
    simp only [decryptWords, decryptWord_eq hk (hf c (by simp)),
      decryptWords_eq hk cts os (by simpa using hl) (fun x hx => hf x (by simp [hx])), List.map_cons]

theorem cts_map {v : LweVec (BitVec w)} {n m : Nat} (h : v.Shape n m) {A : Type} (g : List (BitVec w) → A) :
    v.cts.map g = (List.range m).map fun i => g (v.get i) := by
  rw [h.cts, List.map_map]; rfl

theorem decryptLweVec_eq {bld : Build} {key : List (BitVec w)} {v : LweVec (BitVec w)} {m : Nat}
    (hk : bld = .release ∨ Lwe.BinaryKey key) (hv : v.Shape key.length m) :
    decryptLweVec bld key v = .ok ((List.range m).map fun i => Lwe.phase key (v.get i)) ∧
    ∀ out : List (BitVec w), out.length = m →
      decryptLweVecInto bld key out v = .ok ((List.range m).map fun i => Lwe.phase key (v.get i)) := by
  have hf : ∀ c ∈ v.cts, Lwe.Fits key c := by
    rw [hv.cts]
    intro c hc
    obtain ⟨i, hi, rfl⟩ := List.mem_map.1 hc
    exact hv.get_length (List.mem_range.1 hi)
  have hl : v.cts.length = m := by rw [hv.cts]; simp
  constructor
  · rw [decryptLweVec, Checks.lweCiphertextVectorDecryption, hv.dim, hv.count]
    simp only [checks, bad, bne_self_eq_false]
    rw [decryptWords_eq hk _ _ (by rw [hl]; simp) hf, cts_map hv]
    rfl
  · intro out ho
    rw [decryptLweVecInto, Checks.lweCiphertextVectorDiscardingDecryption, hv.dim, hv.count, ho]
    simp only [checks, bad, bne_self_eq_false]
    rw [decryptWords_eq hk _ _ (by rw [hl, ho]) hf, cts_map hv]
    rfl

/-! ### LWE encryption calls -/

/-- What an LWE encryption call leaves in its output. -/
def LweOk (f : GaussianFn w) (key msgs d : List (BitVec w)) : Prop :=
  d.length = msgs.length * (key.length + 1) ∧
  ∃ noise : List (BitVec w), noise.length = msgs.length ∧ (∀ x ∈ noise, Drawn f x) ∧
    ∀ i, i < msgs.length → Lwe.phase key (block (key.length + 1) d i) = msgs.getD i 0 + noise.getD i 0

theorem rep_drawn {A : Type} (s : Samp A) : ∀ (n : Nat) (g g' : Src) (xs : List A), rep n s g = some (xs, g') →
    ∀ x ∈ xs, ∃ a b, s a = some (x, b)
  | 0, g, g', xs, h, x, hx => by
    simp only [rep, Option.some.injEq, Prod.mk.injEq] at h
    rw [← h.1] at hx; cases hx
  | n + 1, g, g', xs, h, x, hx => by
    simp only [rep] at h
    cases h1 : s g with
    | none => rw [h1] at h; cases h
    | some r =>
      obtain ⟨y, g1⟩ := r
      simp only [h1] at h
      cases h2 : rep n s g1 with
      | none => rw [h2] at h; cases h
      | some q =>
        obtain ⟨ys, g2⟩ := q
        simp only [h2, Option.some.injEq, Prod.mk.injEq] at h
        rw [← h.1] at hx
        rcases List.mem_cons.1 hx with rfl | hx
        · exact ⟨_, _, h1⟩
        · exact rep_drawn s n g1 g2 ys h2 x hx

theorem lweOk_one {f : GaussianFn w} {key out d : List (BitVec w)} {m : BitVec w} {g g' : EncGen}
    (ho : Lwe.Fits key out) (h : Lwe.encryptLwe f key out m g = some (d, g')) : LweOk f key [m] d := by
  obtain ⟨e, hn, hf, hp⟩ := Lwe.encryptLwe_phase ho h
  refine ⟨by rw [hf]; simp, [e], rfl, ?_, ?_⟩
  · intro x hx
    rw [List.mem_singleton.1 hx]
    exact ⟨_, _, hn⟩
  · intro i hi
    have : i = 0 := by simpa using hi
    subst this
    rw [block, Nat.zero_mul, List.drop_zero, List.take_of_length_le (by rw [hf]), hp]
    rfl

theorem lweOk_list {f : GaussianFn w} {key out d ms : List (BitVec w)} {g g' : EncGen}
    (ho : out.length = ms.length * (key.length + 1))
    (h : Lwe.encryptLweList f key (key.length + 1) out ms g = some (d, g')) : LweOk f key ms d := by
  obtain ⟨es, h1, h2, h3⟩ := Lwe.encryptLweList_block ho h
  exact ⟨h2, es, Lwe.rep_length _ _ _ _ _ h1, rep_drawn _ _ _ _ _ h1, h3⟩

theorem lweOk_par {f : GaussianFn w} {key out d ms : List (BitVec w)} {g g' : EncGen} {sched : List Nat}
    (ho : out.length = ms.length * (key.length + 1)) (hp : sched.Perm (List.range ms.length))
    (h : Lwe.parEncryptLweList f key (key.length + 1) out ms g sched = some (d, g')) : LweOk f key ms d := by
  obtain ⟨h1, _, _, h4⟩ := Lwe.C18_lwe_list_elements f key out ms d g g' ho sched hp h
  have : ∀ i : Nat, ∃ e : BitVec w, i < ms.length → Drawn f e ∧
      Lwe.phase key (block (key.length + 1) d i) = ms.getD i 0 + e := by
    intro i
    by_cases hi : i < ms.length
    · obtain ⟨gi, gi', e, _, _, _, k1, k2⟩ := h4 i hi
      refine ⟨e, fun _ => ⟨⟨_, _, k1⟩, ?_⟩⟩
      rw [Lwe.decryptLwe_eq (by
        rw [Lwe.Fits]; apply block_length; rw [h1]; exact Nat.mul_le_mul_right _ hi)] at k2
      exact Option.some.inj k2
    · exact ⟨0, fun h => absurd h hi⟩
  choose E hE using this
  refine ⟨h1, (List.range ms.length).map E, by simp, ?_, ?_⟩
  · intro x hx
    obtain ⟨i, hi, rfl⟩ := List.mem_map.1 hx
    exact (hE i (List.mem_range.1 hi)).1
  · intro i hi
    rw [(hE i hi).2]
    simp [List.getD_eq_getElem?_getD, hi]

theorem lweOk_exec {bld : Build} {c : EncCall w} {f : GaussianFn w} {key msgs d : List (BitVec w)} {g g' : EncGen}
    (hm : c.lweMessages = some (f, key, msgs)) (hw : c.WellFormed) (hc : c.check bld = .ok ())
    (he : c.exec bld g = some (d, g')) : LweOk f key msgs d ∧ c.shape = (key.length, key.length + 1) := by
  cases c <;> simp only [EncCall.lweMessages, Option.some.injEq, Prod.mk.injEq, reduceCtorEq] at hm
  case lwe f' key' m =>
    obtain ⟨rfl, rfl, rfl⟩ := hm
    exact ⟨lweOk_one (by simp [Lwe.Fits]) he, rfl⟩
  case lweInto f' key' out m =>
    obtain ⟨rfl, rfl, rfl⟩ := hm
    refine ⟨lweOk_one ?_ he, rfl⟩
    have h1 := bad_ok (checks_cons_ok hc).1
    have h2 : out.length ≠ 0 := fun h => hw (List.length_eq_zero_iff.1 h)
    simp only [bne_eq_false_iff_eq] at h1
    rw [Lwe.Fits]; omega
  case lweZero f' key' =>
    obtain ⟨rfl, rfl, rfl⟩ := hm
    exact ⟨lweOk_one (by simp [Lwe.Fits]) he, rfl⟩
  case lweVec f' key' ms =>
    obtain ⟨rfl, rfl, rfl⟩ := hm
    exact ⟨lweOk_list (by simp [Nat.mul_comm]) he, rfl⟩
  case lweVecInto f' key' out ms =>
    obtain ⟨rfl, rfl, rfl⟩ := hm
    obtain ⟨a, b⟩ := checks_cons_ok hc
    have h1 := bad_ok a
    have h2 := bad_ok (checks_cons_ok b).1
    simp only [bne_eq_false_iff_eq, LweVec.dim, LweVec.count] at h1 h2
    obtain ⟨w1, w2⟩ := hw
    have hs : out.lweSize = key'.length + 1 := by omega
    simp only [EncCall.exec, hs] at he
    refine ⟨lweOk_list ?_ he, rfl⟩
    rw [h2, ← hs, Nat.div_mul_cancel w2]
  case lweVecZero f' key' n =>
    obtain ⟨rfl, rfl, rfl⟩ := hm
    refine ⟨?_, rfl⟩
    simp only [EncCall.exec, zeroEncryptVec] at he
    split at he
    · cases he
    · rename_i d' g1 h1
      simp only [Option.map_some, Option.some.injEq, Prod.mk.injEq] at he
      obtain ⟨rfl, rfl⟩ := he
      exact lweOk_list (by simp [Nat.mul_comm]) h1
  case parLweVecZero f' key' n sched =>
    obtain ⟨rfl, rfl, rfl⟩ := hm
    exact ⟨lweOk_par (by simp [Nat.mul_comm]) (by rw [List.length_replicate]; exact hw) he, rfl⟩
  case publicKey f' key' n =>
    obtain ⟨rfl, rfl, rfl⟩ := hm
    refine ⟨?_, rfl⟩
    simp only [EncCall.exec, zeroEncryptVec] at he
    split at he
    · cases he
    · rename_i d' g1 h1
      simp only [Option.map_some, Option.some.injEq, Prod.mk.injEq] at he
      obtain ⟨rfl, rfl⟩ := he
      exact lweOk_list (by simp [Nat.mul_comm]) h1
  case parPublicKey f' key' n sched =>
    obtain ⟨rfl, rfl, rfl⟩ := hm
    exact ⟨lweOk_par (by simp [Nat.mul_comm]) (by rw [List.length_replicate]; exact hw) he, rfl⟩

end Verif.Session
