import Verif.Session.DecryptGlwe
/-
Lemmas for C95: seeded ciphertexts and trivial encryptions.
-/
namespace Verif.Session
open Verif.Random Verif.Engine Verif.Glwe Verif.Poly
open Verif.Csprng (Build)
variable {w : Nat}

/-! ### From lists of phases to decryption -/

theorem lweOk_decrypt {bld : Build} {f : GaussianFn w} {key msgs d : List (BitVec w)} (h : LweOk f key msgs d)
    (hk : bld = .release ∨ Lwe.BinaryKey key) :
    ∃ noise : List (BitVec w), noise.length = msgs.length ∧ (∀ x ∈ noise, Drawn f x) ∧
      decryptLweVec bld key ⟨key.length + 1, d⟩ = .ok (List.zipWith (fun a b => a + b) msgs noise) ∧
      (∀ out : List (BitVec w), out.length = msgs.length →
        decryptLweVecInto bld key out ⟨key.length + 1, d⟩ = .ok (List.zipWith (fun a b => a + b) msgs noise)) ∧
      ∀ i, i < msgs.length → ∀ out : BitVec w,
        decryptLwe bld key (block (key.length + 1) d i) = .ok (msgs.getD i 0 + noise.getD i 0) ∧
        decryptLweInto bld key out (block (key.length + 1) d i) = .ok (msgs.getD i 0 + noise.getD i 0) := by
  obtain ⟨hd, noise, hn, hx, hp⟩ := h
  have hs : LweVec.Shape (R := BitVec w) ⟨key.length + 1, d⟩ key.length msgs.length := ⟨rfl, hd⟩
  obtain ⟨e1, e2⟩ := decryptLweVec_eq hk hs
  have e : ((List.range msgs.length).map fun i => Lwe.phase key (LweVec.get (⟨key.length + 1, d⟩ : LweVec (BitVec w)) i)) =
      List.zipWith (fun a b => a + b) msgs noise := by
    apply getD_ext 0
    · simp [hn]
    · intro i hi
      rw [List.length_zipWith, hn, Nat.min_self] at hi
      rw [zipWith_getD i hi (by omega), ← hp i hi]
      rw [List.getD_eq_getElem?_getD, List.getElem?_map, List.getElem?_range hi]
      rfl
  rw [e] at e1 e2
  refine ⟨noise, hn, hx, e1, e2, ?_⟩
  intro i hi out
  have hf : Lwe.Fits key (block (key.length + 1) d i) :=
    block_length _ _ _ (by rw [hd]; exact Nat.mul_le_mul_right _ hi)
  have := decryptWord_eq hk hf
  rw [hp i hi] at this
  refine ⟨by rw [decryptLwe, this]; rfl, ?_⟩
  rw [decryptLweInto, this, hf]
  simp only [Checks.lweCiphertextDiscardingDecryption, Nat.add_sub_cancel, checks, bad, bne_self_eq_false]
  rfl

/-! ### Seeded calls -/

theorem lweOk_seeded {T : BitVec 128 → Nat → BitVec 8} {f : GaussianFn w} {key msgs bs : List (BitVec w)}
    {sd : BitVec 128} {g' : EncGen} {ns : Src}
    (h : Lwe.encryptSeededLweList f key (List.replicate msgs.length 0) msgs ⟨newSrc T sd, ns⟩ = some (bs, g')) :
    ∃ d, transformLweVec T ⟨sd, key.length, 1, bs⟩ = .ok ⟨key.length + 1, d⟩ ∧ LweOk f key msgs d := by
  obtain ⟨hl, d, h1, h2⟩ := (Lwe.C17_lwe_list f key (List.replicate ((key.length + 1) * msgs.length) 0)
    (List.replicate msgs.length 0) msgs ⟨newSrc T sd, ns⟩ (by rw [List.length_replicate, Nat.mul_comm])
    (by simp)).1 bs g' h
  refine ⟨d, ?_, lweOk_list (by rw [List.length_replicate, Nat.mul_comm]) h2⟩
  simp only [transformLweVec, hl]
  simp only at h1
  rw [h1]
  rfl

theorem lweOk_seeded_one {T : BitVec 128 → Nat → BitVec 8} {f : GaussianFn w} {key : List (BitVec w)} {m b : BitVec w}
    {sd : BitVec 128} {g' : EncGen} {ns : Src} (h : Lwe.encryptSeededLwe f key m ⟨newSrc T sd, ns⟩ = some (b, g')) :
    ∃ d, transformLwe T ⟨sd, key.length, 1, [b]⟩ = .ok d ∧ LweOk f key [m] d := by
  obtain ⟨mask, h1, h2⟩ := Lwe.C17_lwe_mask_state f key (List.replicate (key.length + 1) 0) m b _ g'
    (by simp [Lwe.Fits]) h
  refine ⟨mask ++ [b], ?_, lweOk_one (by simp [Lwe.Fits]) h2⟩
  simp only [transformLwe]
  simp only at h1
  rw [h1]
  rfl

theorem seededAux_count {f : GaussianFn w} {N : Nat} {key : List (BitVec w)} :
    ∀ (bs ms : List (List (BitVec w))) (g : EncGen) (r : List (List (BitVec w)) × EncGen), bs.length = ms.length →
    encryptSeededGlweListAux f key N bs ms g = some r → r.1.length = bs.length
  | [], ms, g, r, _, h => by
    cases ms <;> simp only [encryptSeededGlweListAux, Option.some.injEq] at h <;> rw [← h]
  | b :: bs, [], g, r, hl, _ => by simp at hl
  | b :: bs, m :: ms, g, r, hl, h => by
    simp only [encryptSeededGlweListAux] at h
    split at h
    · cases h
    · split at h
      · cases h
      · rename_i e
        simp only [Option.some.injEq] at h
        rw [← h]
        have := seededAux_count bs ms _ _ (by simpa using hl) e
        simpa using this

theorem glweOk_seeded {T : BitVec 128 → Nat → BitVec 8} {f : GaussianFn w} {key : GlweKey (BitVec w)}
    {msgs bs : List (BitVec w)} {sd : BitVec 128} {g' : EncGen} {ns : Src} (h0 : 0 < key.polySize)
    (hk : key.polySize ∣ key.data.length) (hm : key.polySize ∣ msgs.length)
    (h : encryptSeededGlweList f key.data key.polySize
      (List.replicate (key.polySize * (msgs.length / key.polySize)) 0) msgs ⟨newSrc T sd, ns⟩ = some (bs, g')) :
    ∃ d, transformGlweVec T ⟨sd, key.dim * key.polySize, key.polySize, bs⟩ = .ok ⟨d, key.dim + 1, key.polySize⟩ ∧
      GlweOk f key.polySize key.dim key.data msgs d := by
  have e1 : (List.replicate (key.polySize * (key.dim + 1) * (msgs.length / key.polySize)) (0 : BitVec w)).length =
      msgs.length / key.polySize * ((key.dim + 1) * key.polySize) := by rw [List.length_replicate]; ring
  have e2 : msgs.length = msgs.length / key.polySize * key.polySize := (Nat.div_mul_cancel hm).symm
  have hb : bs.length = msgs.length := by
    have hc : (chunks key.polySize
        (List.replicate (key.polySize * (msgs.length / key.polySize)) (0 : BitVec w))).length =
        (chunks key.polySize msgs).length := by
      rw [chunks_length _ h0 (msgs.length / key.polySize) _ (by rw [List.length_replicate, Nat.mul_comm]),
        chunks_length _ h0 _ _ e2]
    simp only [encryptSeededGlweList] at h
    split at h
    · cases h
    · rename_i bs' g1 e
      simp only [Option.some.injEq, Prod.mk.injEq] at h
      obtain ⟨rfl, rfl⟩ := h
      rw [flatten_length_uniform key.polySize bs'
        (seededGlweListAux_len f key.polySize key.dim h0 key.data (key_fits hk) _ _ _ _ _ hc e),
        seededAux_count _ _ _ _ hc e, hc, chunks_length _ h0 _ _ e2, ← e2]
  obtain ⟨d, h1, h2⟩ := (C17_glwe_list f key.polySize key.dim (msgs.length / key.polySize) h0 key.data _
    (List.replicate (key.polySize * (msgs.length / key.polySize)) 0) msgs ⟨newSrc T sd, ns⟩ (key_fits hk) e1
    (by rw [List.length_replicate, Nat.mul_comm]) e2).1 bs g' h
  refine ⟨d, ?_, glweOk_list h0 (key_fits hk) e1 e2 h2⟩
  simp only [transformGlweVec, Nat.mul_div_cancel _ h0, hb]
  simp only at h1
  rw [h1]
  rfl

theorem glweOk_seeded_one {T : BitVec 128 → Nat → BitVec 8} {f : GaussianFn w} {key : GlweKey (BitVec w)}
    {m bs : List (BitVec w)} {sd : BitVec 128} {g' : EncGen} {ns : Src} (h0 : 0 < key.polySize)
    (hk : key.polySize ∣ key.data.length) (hm : m.length = key.polySize)
    (h : encryptSeededGlwe f key.data key.polySize m ⟨newSrc T sd, ns⟩ = some (bs, g')) :
    ∃ d, transformGlwe T ⟨sd, key.dim * key.polySize, key.polySize, bs⟩ = .ok ⟨d, key.polySize⟩ ∧
      GlweOk f key.polySize key.dim key.data m d := by
  have e1 : CtFits key.polySize key.dim (List.replicate (key.polySize * (key.dim + 1)) (0 : BitVec w)) := by
    rw [CtFits, List.length_replicate, Nat.mul_comm]
  obtain ⟨mask, h1, h2⟩ := (C17_glwe f key.polySize key.dim key.data _ m ⟨newSrc T sd, ns⟩ (key_fits hk) e1).1 bs g' h
  refine ⟨mask ++ bs, ?_, glweOk_list (n := 1) h0 (key_fits hk) (by rw [e1, Nat.one_mul]) (by omega)
    (encryptGlwe_list h0 e1 hm h2)⟩
  simp only [transformGlwe, Nat.mul_div_cancel _ h0]
  simp only at h1
  rw [h1]
  rfl

/-! ### Trivial encryption -/

theorem trivialWords_eq (n : Nat) : ∀ (cts : List (List (BitVec w))) (ms : List (BitVec w)), cts.length = ms.length →
    (∀ c ∈ cts, c.length = n + 1) → trivialWords cts ms = some (ms.map fun m => List.replicate n 0 ++ [m])
  | [], ms, hl, _ => by
    have : ms = [] := List.length_eq_zero_iff.1 hl.symm
    rw [this]; rfl
  | c :: cts, [], hl, _ => by simp at hl
  | c :: cts, m :: ms, hl, h => by
    have hc := h c (by simp)
    have : Lwe.fillWithTrivialEncryption c m = some (List.replicate n 0 ++ [m]) := by
      obtain ⟨mask, b, rfl, hm⟩ := Lwe.exists_split (s := List.replicate n (0 : BitVec w)) (ct := c) (by
        rw [Lwe.Fits, List.length_replicate]; exact hc)
      rw [List.length_replicate] at hm
      simp [Lwe.fillWithTrivialEncryption, hm]
    simp only [trivialWords, this, trivialWords_eq n cts ms (by simpa using hl) (fun x hx => h x (by simp [hx])),
      List.map_cons]

theorem bodies_eq : ∀ (ms out : List (BitVec w)) (n : Nat), out.length = ms.length →
    bodies (ms.map fun m => List.replicate n 0 ++ [m]) out = some ms
  | [], out, _, h => by
    have : out = [] := List.length_eq_zero_iff.1 h
    rw [this]; rfl
  | m :: ms, [], _, h => by simp at h
  | m :: ms, o :: os, n, h => by
    simp only [List.map_cons, bodies, List.getLast?_append, List.getLast?_singleton, Option.some_or,
      bodies_eq ms os n (by simpa using h)]

theorem trivialPolys_eq (N k : Nat) (hN : 0 < N) : ∀ cts ms : List (List (BitVec w)), cts.length = ms.length →
    (∀ c ∈ cts, CtFits N k c) → (∀ m ∈ ms, m.length = N) →
    trivialPolys N cts ms = ms.map fun m => List.replicate (k * N) 0 ++ m
  | [], ms, hl, _, _ => by
    have : ms = [] := List.length_eq_zero_iff.1 hl.symm
    rw [this]; rfl
  | c :: cts, [], hl, _, _ => by simp at hl
  | c :: cts, m :: ms, hl, h, h' => by
    have e : fillTrivialGlwe N c m = List.replicate (k * N) 0 ++ m := by
      rw [fillTrivialGlwe, List.map_const', mask_length N k c (h c (by simp)),
        zipUpdate_snd _ _ (by rw [body_length N k c (h c (by simp)), h' m (by simp)])]
    simp only [trivialPolys, e, List.map_cons, trivialPolys_eq N k hN cts ms (by simpa using hl)
      (fun x hx => h x (by simp [hx])) (fun x hx => h' x (by simp [hx]))]

theorem bodyPolys_eq (N k : Nat) : ∀ os ms : List (List (BitVec w)), os.length = ms.length → (∀ m ∈ ms, m.length = N) →
    bodyPolys N os (ms.map fun m => List.replicate (k * N) 0 ++ m) = ms
  | [], ms, hl, _ => by
    have : ms = [] := List.length_eq_zero_iff.1 hl.symm
    rw [this]; rfl
  | o :: os, [], hl, _ => by simp at hl
  | o :: os, m :: ms, hl, h => by
    have : bodyOf N (List.replicate (k * N) 0 ++ m) = m := by
      have := h m (by simp)
      simp [bodyOf, this]
    simp only [List.map_cons, bodyPolys, this, bodyPolys_eq N k os ms (by simpa using hl)
      (fun x hx => h x (by simp [hx]))]

theorem decryptAux_trivial (N k : Nat) (hN : 0 < N) (key : List (BitVec w)) (hk : KeyFits N k key) :
    ∀ os ms : List (List (BitVec w)), os.length = ms.length → (∀ o ∈ os, o.length = N) → (∀ m ∈ ms, m.length = N) →
    decryptGlweListAux N key os (ms.map fun m => List.replicate (k * N) 0 ++ m) = ms
  | [], ms, hl, _, _ => by
    have : ms = [] := List.length_eq_zero_iff.1 hl.symm
    rw [this]; rfl
  | o :: os, [], hl, _, _ => by simp at hl
  | o :: os, m :: ms, hl, h, h' => by
    have hm := h' m (by simp)
    have hz : CtFits N k (List.replicate (k * N) 0 ++ m) := by
      rw [CtFits, List.length_append, List.length_replicate, hm, Nat.add_mul, Nat.one_mul]
    have e : fillTrivialGlwe N (List.replicate (k * N) 0 ++ m) m = List.replicate (k * N) 0 ++ m := by
      rw [fillTrivialGlwe, List.map_const', mask_length N k _ hz, zipUpdate_snd _ _ (by rw [body_length N k _ hz, hm])]
    have := (C15_glwe_trivial N k hN key _ o m hk hz (h o (by simp)) hm).2.1
    rw [e] at this
    simp only [List.map_cons, decryptGlweListAux, this, decryptAux_trivial N k hN key hk os ms (by simpa using hl)
      (fun x hx => h x (by simp [hx])) (fun x hx => h' x (by simp [hx]))]

end Verif.Session
