import Verif.Session.DecryptTrivial
import Verif.Session.History
/-
C95: what is encrypted by a call of an engine, at any point of a history, is what is decrypted by the calls of the
engine, up to a noise that the sampler can return; seeded ciphertexts likewise, after their transformation; trivial
ciphertexts decrypt exactly, under every key.
-/
namespace Verif.Session
open Verif.Random Verif.Engine Verif.Glwe
open Verif.Csprng (Build)
variable {w : Nat} (T : BitVec 128 → Nat → BitVec 8) (bld : Build)

/-! ### Encryption and decryption -/

/-- C95, LWE ciphertexts: whatever was done before and after with the engine, the four decryptions return each
message plus a value of the noise sampler. In a debug build the bits of the key must be bits, as those the engine
draws are, for the products not to overflow. -/
theorem C95_lwe (cs : List Call) (e e' : Engine) (os : List Out) (h : run T bld cs e = some (os, e'))
    (i : Nat) (c : EncCall w) (ct : Cts w) (hc : cs[i]? = some (.enc c)) (ho : os[i]? = some (.cts ct))
    (f : GaussianFn w) (key msgs : List (BitVec w)) (hm : c.lweMessages = some (f, key, msgs)) (hw : c.WellFormed)
    (hk : bld = .release ∨ Lwe.BinaryKey key) :
    ∃ noise : List (BitVec w), noise.length = msgs.length ∧ (∀ x ∈ noise, Drawn f x) ∧
      decryptLweVec bld key ⟨ct.size, ct.data⟩ = .ok (List.zipWith (fun a b => a + b) msgs noise) ∧
      (∀ out : List (BitVec w), out.length = msgs.length →
        decryptLweVecInto bld key out ⟨ct.size, ct.data⟩ = .ok (List.zipWith (fun a b => a + b) msgs noise)) ∧
      ∀ j, j < msgs.length → ∀ out : BitVec w,
        decryptLwe bld key (block ct.size ct.data j) = .ok (msgs.getD j 0 + noise.getD j 0) ∧
        decryptLweInto bld key out (block ct.size ct.data j) = .ok (msgs.getD j 0 + noise.getD j 0) := by
  obtain ⟨o, e1, e2, h1, h2⟩ := run_get T bld cs e e' os i _ h hc
  rw [ho] at h1
  cases h1
  obtain ⟨k1, d, k2, k3⟩ := enc_run_ok (step_enc h2)
  obtain ⟨k4, k5⟩ := lweOk_exec hm hw k1 k2
  subst k3
  simp only [k5]
  exact lweOk_decrypt k4 hk

/-- C95, GLWE ciphertexts: likewise; the single decryptions apply to single ciphertexts. -/
theorem C95_glwe (cs : List Call) (e e' : Engine) (os : List Out) (h : run T bld cs e = some (os, e'))
    (i : Nat) (c : EncCall w) (ct : Cts w) (hc : cs[i]? = some (.enc c)) (ho : os[i]? = some (.cts ct))
    (f : GaussianFn w) (key : GlweKey (BitVec w)) (msgs : List (BitVec w)) (hm : c.glweMessages = some (f, key, msgs))
    (hw : c.WellFormed) :
    ct.size = (key.dim + 1) * key.polySize ∧
    ∃ noise : List (List (BitVec w)), noise.length * key.polySize = msgs.length ∧
      (∀ p ∈ noise, DrawnPoly f key.polySize p) ∧
      decryptGlweVec key ⟨ct.data, key.dim + 1, key.polySize⟩ =
        .ok (List.zipWith (fun a b => a + b) msgs noise.flatten) ∧
      (∀ out : List (BitVec w), out.length = msgs.length →
        decryptGlweVecInto key out ⟨ct.data, key.dim + 1, key.polySize⟩ =
          .ok (List.zipWith (fun a b => a + b) msgs noise.flatten)) ∧
      (msgs.length = key.polySize →
        decryptGlwe key ⟨ct.data, key.polySize⟩ = .ok (List.zipWith (fun a b => a + b) msgs noise.flatten) ∧
        ∀ out : List (BitVec w), out.length = key.polySize →
          decryptGlweInto key out ⟨ct.data, key.polySize⟩ =
            .ok (List.zipWith (fun a b => a + b) msgs noise.flatten)) := by
  obtain ⟨o, e1, e2, h1, h2⟩ := run_get T bld cs e e' os i _ h hc
  rw [ho] at h1
  cases h1
  obtain ⟨k1, d, k2, k3⟩ := enc_run_ok (step_enc h2)
  obtain ⟨⟨n, noise, g1, g2, g3, g4, g5⟩, k5, _, k6⟩ := glweOk_exec hm hw k1 k2
  subst k3
  obtain ⟨a, b, c⟩ := decryptGlweVec_eq k5 g2 g5
  refine ⟨by rw [k6], noise, by rw [g1, g3], g4, a, fun out ho => b out (by rw [ho, g1]), fun hl => c ?_⟩
  rw [g1] at hl
  exact Nat.eq_of_mul_eq_mul_right k5 (by rw [hl, Nat.one_mul])

/-- C95, seeded LWE ciphertexts: the transformation gives ciphertexts that decrypt to the messages plus noise. -/
theorem C95_lwe_seeded (cs : List Call) (e e' : Engine) (os : List Out) (h : run T bld cs e = some (os, e'))
    (i : Nat) (c : SeededCall w) (s : Seeded w) (hc : cs[i]? = some (.seeded c)) (ho : os[i]? = some (.seeded s))
    (f : GaussianFn w) (key msgs : List (BitVec w)) (hm : c.lweMessages = some (f, key, msgs))
    (hk : bld = .release ∨ Lwe.BinaryKey key) :
    ∃ noise : List (BitVec w), noise.length = msgs.length ∧ (∀ x ∈ noise, Drawn f x) ∧
      ((∃ m, c = .lwe f key m) → ∃ ct, transformLwe T s = .ok ct ∧
        decryptLwe bld key ct = .ok (msgs.getD 0 0 + noise.getD 0 0)) ∧
      ((∃ ms, c = .lweVec f key ms) → ∃ v, transformLweVec T s = .ok v ∧
        decryptLweVec bld key v = .ok (List.zipWith (fun a b => a + b) msgs noise)) := by
  obtain ⟨o, e1, e2, h1, h2⟩ := run_get T bld cs e e' os i _ h hc
  rw [ho] at h1
  cases h1
  obtain ⟨k1, sd, g1, sd', bs, en, _, _, k2, rfl⟩ := seeded_run_ok (step_seeded h2)
  cases c <;> simp only [SeededCall.lweMessages, Option.some.injEq, Prod.mk.injEq, reduceCtorEq] at hm
  case lwe f' key' m =>
    obtain ⟨rfl, rfl, rfl⟩ := hm
    simp only [SeededCall.exec] at k2
    obtain ⟨⟨b, g2⟩, k3, k4⟩ := Option.map_eq_some_iff.1 k2
    simp only [Prod.mk.injEq] at k4
    obtain ⟨rfl, rfl⟩ := k4
    obtain ⟨d, t1, t2⟩ := lweOk_seeded_one k3
    obtain ⟨noise, n1, n2, _, _, n3⟩ := lweOk_decrypt t2 hk
    refine ⟨noise, n1, n2, fun _ => ⟨d, t1, ?_⟩, fun ⟨_, h⟩ => by cases h⟩
    have := (n3 0 (by simp) 0).1
    rwa [block, Nat.zero_mul, List.drop_zero, List.take_of_length_le (by rw [t2.1]; simp)] at this
  case lweVec f' key' ms =>
    obtain ⟨rfl, rfl, rfl⟩ := hm
    obtain ⟨d, t1, t2⟩ := lweOk_seeded k2
    obtain ⟨noise, n1, n2, n3, _⟩ := lweOk_decrypt t2 hk
    exact ⟨noise, n1, n2, (fun ⟨_, h⟩ => by cases h), fun _ => ⟨_, t1, n3⟩⟩

/-- C95, seeded GLWE ciphertexts. -/
theorem C95_glwe_seeded (cs : List Call) (e e' : Engine) (os : List Out) (h : run T bld cs e = some (os, e'))
    (i : Nat) (c : SeededCall w) (s : Seeded w) (hc : cs[i]? = some (.seeded c)) (ho : os[i]? = some (.seeded s))
    (f : GaussianFn w) (key : GlweKey (BitVec w)) (msgs : List (BitVec w)) (hm : c.glweMessages = some (f, key, msgs))
    (h0 : 0 < key.polySize) (hd : key.polySize ∣ key.data.length) :
    ∃ noise : List (List (BitVec w)), noise.length * key.polySize = msgs.length ∧
      (∀ p ∈ noise, DrawnPoly f key.polySize p) ∧
      ((∃ m, c = .glwe f key m) → ∃ ct, transformGlwe T s = .ok ct ∧
        decryptGlwe key ct = .ok (List.zipWith (fun a b => a + b) msgs noise.flatten)) ∧
      ((∃ ms, c = .glweVec f key ms) → ∃ v, transformGlweVec T s = .ok v ∧
        decryptGlweVec key v = .ok (List.zipWith (fun a b => a + b) msgs noise.flatten)) := by
  obtain ⟨o, e1, e2, h1, h2⟩ := run_get T bld cs e e' os i _ h hc
  rw [ho] at h1
  cases h1
  obtain ⟨k1, sd, g1, sd', bs, en, _, _, k2, rfl⟩ := seeded_run_ok (step_seeded h2)
  cases c <;> simp only [SeededCall.glweMessages, Option.some.injEq, Prod.mk.injEq, reduceCtorEq] at hm
  case glwe f' key' m =>
    obtain ⟨rfl, rfl, rfl⟩ := hm
    have hl := bad_ok (checks_cons_ok k1).1
    simp only [bne_eq_false_iff_eq, keyDims] at hl
    obtain ⟨d, t1, n, noise, n1, n2, n3, n4, n5⟩ := glweOk_seeded_one h0 hd hl.symm k2
    obtain ⟨_, _, a⟩ := decryptGlweVec_eq h0 n2 n5
    have hn : n = 1 := Nat.eq_of_mul_eq_mul_right h0 (by rw [← n1, Nat.one_mul, hl])
    exact ⟨noise, by rw [n3, n1], n4, fun _ => ⟨_, t1, (a hn).1⟩, fun ⟨_, h⟩ => by cases h⟩
  case glweVec f' key' ms =>
    obtain ⟨rfl, rfl, rfl⟩ := hm
    obtain ⟨d, t1, n, noise, n1, n2, n3, n4, n5⟩ := glweOk_seeded h0 hd (mod_check h0 k1) k2
    obtain ⟨a, _, _⟩ := decryptGlweVec_eq h0 n2 n5
    exact ⟨noise, by rw [n3, n1], n4, (fun ⟨_, h⟩ => by cases h), fun _ => ⟨_, t1, a⟩⟩

/-! ### Trivial ciphertexts -/

/-- C95, trivial LWE vectors: for every size and all plaintexts, the trivial decryption and the decryption with any
key of the dimension return the plaintexts. -/
theorem C95_trivial_lwe (n : Nat) (pts : List (BitVec w)) :
    ∃ v, trivialEncryptLweVec (n + 1) pts = .ok v ∧ trivialDecryptLweVec v = .ok pts ∧
      ∀ key : List (BitVec w), key.length = n → (bld = .release ∨ Lwe.BinaryKey key) →
        decryptLweVec bld key v = .ok pts := by
  have hl : (List.replicate ((n + 1) * pts.length) (0 : BitVec w)).length = pts.length * (n + 1) := by
    rw [List.length_replicate, Nat.mul_comm]
  have e := trivialWords_eq n (chunks (n + 1) (List.replicate ((n + 1) * pts.length) (0 : BitVec w))) pts
    (chunks_length _ (Nat.succ_pos n) _ _ hl) (chunks_len _ (Nat.succ_pos n) _ _ hl)
  have hu : ∀ x ∈ pts.map (fun m => List.replicate n (0 : BitVec w) ++ [m]), x.length = n + 1 := by
    intro x hx
    obtain ⟨m, _, rfl⟩ := List.mem_map.1 hx
    simp
  have hs : LweVec.Shape (R := BitVec w)
      ⟨n + 1, (pts.map fun m => List.replicate n (0 : BitVec w) ++ [m]).flatten⟩ n pts.length :=
    ⟨rfl, by rw [flatten_length_uniform _ _ hu, List.length_map]⟩
  have hc : LweVec.cts (⟨n + 1, (pts.map fun m => List.replicate n (0 : BitVec w) ++ [m]).flatten⟩ : LweVec (BitVec w)) =
      pts.map fun m => List.replicate n (0 : BitVec w) ++ [m] := chunks_of_flatten _ (Nat.succ_pos n) _ hu
  refine ⟨_, by rw [trivialEncryptLweVec, if_neg (Nat.succ_ne_zero n), e], ?_, ?_⟩
  · rw [trivialDecryptLweVec, hc, bodies_eq _ _ _ (by rw [List.length_replicate, hs.count])]
    rfl
  · rintro key rfl hk
    rw [(decryptLweVec_eq hk hs).1, ← cts_map hs (Lwe.phase key), hc, List.map_map]
    congr 1
    have : (Lwe.phase key ∘ fun m => List.replicate key.length 0 ++ [m]) = id := by
      funext m
      simp only [Function.comp, id]
      rw [Lwe.phase_append _ _ _ (by simp), Lwe.multisum_zero, sub_zero]
    rw [this, List.map_id]

/-- C95, trivial GLWE vectors: for every dimension, every positive polynomial size and number of ciphertexts, and
all plaintexts. -/
theorem C95_trivial_glwe (k N count : Nat) (hN : 0 < N) (hc : 0 < count) (pts : List (BitVec w))
    (hl : pts.length = count * N) :
    ∃ v, trivialEncryptGlweVec k count pts = .ok v ∧ trivialDecryptGlweVec v = .ok pts ∧
      ∀ key : GlweKey (BitVec w), key.polySize = N → key.data.length = k * N → decryptGlweVec key v = .ok pts := by
  have hkN : 0 < (k + 1) * N := Nat.mul_pos (by omega) hN
  have hr : (List.replicate (N * (k + 1) * count) (0 : BitVec w)).length = count * ((k + 1) * N) := by
    rw [List.length_replicate]; ring
  have hd : pts.length / count = N := by rw [hl, Nat.mul_div_cancel_left _ hc]
  have hp := chunks_len N hN count pts hl
  have e := trivialPolys_eq N k hN (chunks ((k + 1) * N) (List.replicate (N * (k + 1) * count) (0 : BitVec w)))
    (chunks N pts) (by rw [chunks_length _ hkN _ _ hr, chunks_length _ hN _ _ hl]) (chunks_len _ hkN _ _ hr) hp
  have hu : ∀ x ∈ (chunks N pts).map (fun m => List.replicate (k * N) (0 : BitVec w) ++ m), x.length = (k + 1) * N := by
    intro x hx
    obtain ⟨m, hm, rfl⟩ := List.mem_map.1 hx
    rw [List.length_append, List.length_replicate, hp m hm]
    ring
  have hdl : ((chunks N pts).map fun m => List.replicate (k * N) (0 : BitVec w) ++ m).flatten.length =
      count * ((k + 1) * N) := by
    rw [flatten_length_uniform _ _ hu, List.length_map, chunks_length _ hN _ _ hl]
  have hfl : (chunks N pts).flatten = pts := chunks_flatten N hN pts
  refine ⟨⟨((chunks N pts).map fun m => List.replicate (k * N) (0 : BitVec w) ++ m).flatten, k + 1, N⟩, ?_, ?_, ?_⟩
  · have hz : pts.length % count = 0 := by rw [hl, Nat.mul_mod_right]
    simp only [trivialEncryptGlweVec, Checks.glweCiphertextVectorTrivialEncryption, modUsize, if_neg hc.ne', withVal,
      hd, if_neg hN.ne', e, hz, checks, bad, bne_self_eq_false]
    rfl
  · simp only [trivialDecryptGlweVec, vecDims, hdl, Nat.mul_div_cancel _ hkN]
    rw [chunks_of_flatten _ hkN _ hu, bodyPolys_eq N k _ _
      (by rw [chunks_length N hN count _ (by simp), chunks_length N hN count _ hl]) hp, hfl]
  · rintro key rfl hk
    have hdim : key.dim = k := by rw [GlweKey.dim, hk, Nat.mul_div_cancel _ hN]
    subst hdim
    refine (decryptGlweVec_eq hN hdl ?_).1
    intro buf hb
    rw [decryptGlweList, chunks_of_flatten _ hkN _ hu, decryptAux_trivial _ _ hN _ hk _ _
      (by rw [chunks_length _ hN count _ hb, chunks_length _ hN count _ hl]) (chunks_len _ hN count _ hb) hp, hfl]

/-- C95, a trivial GLWE ciphertext, new or written over any ciphertext. -/
theorem C95_trivial_glwe_one (k : Nat) (pts : List (BitVec w)) (hN : 0 < pts.length)
    (out : Entity.GlweCiphertext (BitVec w)) (ho : out.polySize = pts.length)
    (hl : out.tensor.length = (k + 1) * pts.length) :
    ∃ ct, trivialEncryptGlwe k pts = .ok ct ∧ trivialEncryptGlweInto out pts = .ok ct ∧
      trivialDecryptGlwe ct = .ok pts ∧
      ∀ key : GlweKey (BitVec w), key.polySize = pts.length → key.data.length = k * pts.length →
        decryptGlwe key ct = .ok pts := by
  have e0 : ∀ o : List (BitVec w), CtFits pts.length k o →
      fillTrivialGlwe pts.length o pts = List.replicate (k * pts.length) 0 ++ pts := by
    intro o h
    rw [fillTrivialGlwe, List.map_const', mask_length _ k _ h, Verif.Poly.zipUpdate_snd _ _ (by rw [body_length _ k _ h])]
  have e1 : newTrivialGlwe k pts = List.replicate (k * pts.length) 0 ++ pts := by
    rw [newTrivialGlwe]
    exact e0 _ (by rw [CtFits, List.length_replicate, Nat.mul_comm])
  have e2 := e0 out.tensor hl
  have hf : CtFits pts.length k (List.replicate (k * pts.length) 0 ++ pts) := by
    rw [CtFits, List.length_append, List.length_replicate, Nat.add_mul, Nat.one_mul]
  refine ⟨⟨List.replicate (k * pts.length) 0 ++ pts, pts.length⟩, by rw [trivialEncryptGlwe, e1], ?_, ?_, ?_⟩
  · simp only [trivialEncryptGlweInto, Checks.glweCiphertextDiscardingTrivialEncryption, ctDims, ho, checks, bad,
      bne_self_eq_false, e2]
    rfl
  · simp [trivialDecryptGlwe, bodyOf]
  · intro key h1 h2
    have hdim : key.dim = k := by rw [GlweKey.dim, h2, h1, Nat.mul_div_cancel _ hN]
    have hq : (List.replicate (k * pts.length) 0 ++ pts).length / pts.length - 1 = k := by
      rw [hf, Nat.mul_div_cancel _ hN, Nat.add_sub_cancel]
    have := (C15_glwe_trivial pts.length k hN key.data out.tensor (List.replicate pts.length 0) pts h2 hl (by simp)
      rfl).2.1
    rw [e2] at this
    simp only [decryptGlwe, Checks.glweCiphertextDecryption, keyDims, ctDims, hdim, h1, hq, checks, bad,
      bne_self_eq_false, this]
    rfl

/-! ### Mismatches -/

/-- C95: with a key or an output of other dimensions, the discarding and vector decryptions of LWE ciphertexts
return an error. -/
theorem C95_lwe_mismatch (key out ct : List (BitVec w)) (v : LweVec (BitVec w)) (x : BitVec w) :
    (key.length ≠ ct.length - 1 → decryptLweInto bld key x ct = .err .lweDimensionMismatch) ∧
    (key.length ≠ v.dim → decryptLweVec bld key v = .err .lweDimensionMismatch ∧
      decryptLweVecInto bld key out v = .err .lweDimensionMismatch) ∧
    (key.length = v.dim → v.count ≠ out.length → decryptLweVecInto bld key out v = .err .plaintextCountMismatch) := by
  refine ⟨?_, ?_, ?_⟩
  · intro h
    simp [decryptLweInto, Checks.lweCiphertextDiscardingDecryption, checks, bad, h, afterCheck]
  · intro h
    simp [decryptLweVec, decryptLweVecInto, Checks.lweCiphertextVectorDecryption,
      Checks.lweCiphertextVectorDiscardingDecryption, checks, bad, h, afterCheck]
  · intro h1 h2
    simp [decryptLweVecInto, Checks.lweCiphertextVectorDiscardingDecryption, checks, bad, h1, h2, afterCheck]

/-- C95 for GLWE ciphertexts: other dimensions or sizes of polynomials give an error in the four decryptions. -/
theorem C95_glwe_mismatch (key : GlweKey (BitVec w)) (out : List (BitVec w)) (ct : Entity.GlweCiphertext (BitVec w))
    (v : Entity.GlweList (BitVec w)) :
    (key.dim ≠ ct.tensor.length / ct.polySize - 1 ∨ key.polySize ≠ ct.polySize →
      (∃ x, decryptGlwe key ct = .err x) ∧ ∃ x, decryptGlweInto key out ct = .err x) ∧
    (key.dim ≠ v.glweSize - 1 ∨ key.polySize ≠ v.polySize →
      (∃ x, decryptGlweVec key v = .err x) ∧ ∃ x, decryptGlweVecInto key out v = .err x) ∧
    (ct.polySize ≠ out.length → ∃ x, decryptGlweInto key out ct = .err x) := by
  have key_ne : ∀ a b : Nat, a ≠ b → (a != b) = true ∧ (b != a) = true := fun a b h => by
    simp [h, Ne.symm h]
  refine ⟨?_, ?_, ?_⟩
  · intro h
    simp only [decryptGlwe, decryptGlweInto, Checks.glweCiphertextDecryption,
      Checks.glweCiphertextDiscardingDecryption, checks, bad, keyDims, ctDims]
    constructor
    · split_ifs <;> simp_all [afterCheck]
    · split_ifs <;> simp_all [afterCheck]
  · intro h
    simp only [decryptGlweVec, decryptGlweVecInto, Checks.glweCiphertextVectorDecryption,
      Checks.glweCiphertextVectorDiscardingDecryption, checks, bad, keyDims, vecDims]
    constructor
    · split_ifs <;> simp_all [afterCheck]
    · split_ifs <;> simp_all [afterCheck]
  · intro h
    simp only [decryptGlweInto, Checks.glweCiphertextDiscardingDecryption, checks, bad, keyDims, ctDims]
    by_cases a : key.polySize = ct.polySize <;> by_cases b : key.dim = ct.tensor.length / ct.polySize - 1 <;>
      simp [a, b, h, afterCheck]

/-- The decryption of one LWE ciphertext does not check the dimension of the key, although it returns a `Result`:
for every key of another dimension, a release build returns a plaintext and a debug build panics; the discarding
variant of the same call returns an error. -/
theorem C95_unchecked_dimension_violated (key ct : List (BitVec w)) (h : ct ≠ []) (hn : key.length ≠ ct.length - 1)
    (out : BitVec w) :
    (∃ x, decryptLwe .release key ct = .ok x) ∧ decryptLwe .debug key ct = .panic ∧
    decryptLweInto bld key out ct = .err .lweDimensionMismatch := by
  have hl : ct.getLast? = some (ct.getLast h) := List.getLast?_eq_some_getLast h
  refine ⟨?_, ?_, (C95_lwe_mismatch bld key [] ct ⟨0, []⟩ out).1 hn⟩
  · exact ⟨_, by rw [decryptLwe, decryptWord, hl]; rfl⟩
  · rw [decryptLwe, decryptWord, hl]
    simp only [multisumIn]
    rw [if_neg (by rw [List.length_dropLast]; omega)]
    rfl

/-! ### Examples -/

/-- Keys of dimension three and of two polynomials of two coefficients. -/
def decKey : GlweKey (BitVec 32) := ⟨2, [1, 0, 1, 1]⟩

/-- A history of LWE and GLWE encryptions, some seeded. -/
def decCalls : List Call :=
  [.enc (w := 32) (.lweVec exNoise [1, 0, 1] [1000, 2000]), .enc (w := 32) (.glweVec exNoise decKey [5, 6, 7, 8]),
   .seeded (w := 32) (.lwe exNoise [1, 0, 1] 5), .seeded (w := 32) (.glwe exNoise decKey [9, 10])]

/-- What the results of the history decrypt to. -/
def decValues : List Out → List (Res EErr (List (BitVec 32)))
  | [.cts (w := 32) a, .cts (w := 32) b, .seeded (w := 32) c, .seeded (w := 32) d] =>
    [decryptLweVec .debug [1, 0, 1] ⟨a.size, a.data⟩, decryptGlweVec decKey ⟨b.data, 3, 2⟩,
     match transformLwe exTable c with
     | .ok x => (match decryptLwe .debug [1, 0, 1] x with | .ok y => .ok [y] | _ => .panic)
     | _ => .panic,
     match transformGlwe exTable d with
     | .ok x => decryptGlwe decKey x
     | _ => .panic]
  | _ => []

/-- The history succeeds, and its results decrypt to the messages plus small noise. -/
example : ((newDefault exTable 9).bind (run exTable .debug decCalls)).map (fun r => decValues r.1) =
    some [.ok [1013, 2005], .ok [7, 11, 12, 10], .ok [7], .ok [17, 15]] := by decide +kernel

/-- Trivial ciphertexts. -/
example : (∃ v, trivialEncryptLweVec (w := 32) 3 [4, 5] = .ok v ∧ decryptLweVec .debug [1, 1] v = .ok [4, 5]) ∧
    ∃ v, trivialEncryptGlweVec (w := 32) 2 2 [4, 5, 6, 7] = .ok v ∧ decryptGlweVec decKey v = .ok [4, 5, 6, 7] :=
  ⟨⟨⟨3, [0, 0, 4, 0, 0, 5]⟩, by decide +kernel, by decide +kernel⟩,
   ⟨⟨[0, 0, 0, 0, 4, 5, 0, 0, 0, 0, 6, 7], 3, 2⟩, by decide +kernel, by decide +kernel⟩⟩

/-- A key of dimension one for a ciphertext of dimension two. -/
example : decryptLwe (w := 32) .release [1] [10, 20, 100] = .ok 90 ∧
    decryptLwe (w := 32) .debug [1] [10, 20, 100] = .panic := by decide +kernel

example : EncCall.WellFormed (w := 32) (.glweVec exNoise decKey [5, 6, 7, 8]) := ⟨by decide, by decide⟩

example : Lwe.BinaryKey ([1, 0, 1] : List (BitVec 32)) := by
  intro x hx; simp at hx; rcases hx with rfl | rfl | rfl <;> simp

end Verif.Session
