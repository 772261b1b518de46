import Verif.Entity.Lemmas
/-
Property theorems of the layout of the entities (C57): dimensions, iterators, nested layout.
-/
set_option linter.unusedSectionVars false
set_option linter.unusedVariables false

namespace Verif.Entity

variable {α : Type}

/-! ### LWE -/

/-- C57, lists of LWE ciphertexts: a list made from a container of `n` ciphertexts reports its dimensions,
its iterators return the `n` ciphertexts in order, and updates through the mutable iterator rewrite each
ciphertext in its own place. -/
theorem C57_lwe_list (m : Build) (cont : List α) (size n : Nat) (hs : 0 < size) (hb : size < 2 ^ 64)
    (hl : cont.length = n * size) :
    ∃ x : LweList α, LweList.fromContainer m cont size = some x ∧ x.tensor = cont ∧
      x.lweSize = size ∧ x.maskSize m = some (size - 1) ∧ x.count m = some n ∧
      (∃ parts, x.ciphertextIter m = some parts ∧ Splits cont n size parts) ∧
      (∀ f, InPlace size f → ∃ y, x.updateCiphertexts m f = some y ∧ y.lweSize = size ∧
        Rewritten n size f cont y.tensor) := by
  have hck : ckDimDiv m cont.length [[size]] = some () := ck1 m (fits1 n hs hb hl)
  refine ⟨⟨cont, size⟩, ?_, rfl, rfl, ?_, ?_, ⟨_, ?_, splits_blocks cont hl⟩, ?_⟩
  · simp only [LweList.fromContainer, hck]; rfl
  · exact subU_ok m hs hb
  · simp only [LweList.count, hck, divU_ok hs hl]; rfl
  · simp only [LweList.ciphertextIter, hck, subtensors_ok m hs cont hl]; rfl
  · intro f hf
    obtain ⟨t, ht, hr⟩ := updateSubtensors_ok m hs cont hl f hf
    exact ⟨⟨t, size⟩, by simp only [LweList.updateCiphertexts, hck, ht]; rfl, rfl, hr⟩

/-- C57: cutting a list of LWE ciphertexts into sub-lists of `sub` ciphertexts. -/
theorem C57_lwe_sublists (m : Build) (cont : List α) (size sub q : Nat) (hs : 0 < size) (hsub : 0 < sub)
    (hb : size * sub < 2 ^ 64) (hl : cont.length = q * sub * size) :
    ∃ subs : List (LweList α), LweList.sublistIter m ⟨cont, size⟩ sub = some subs ∧
      Splits cont q (sub * size) (subs.map LweList.tensor) ∧
      ∀ x ∈ subs, x.lweSize = size ∧ x.count m = some sub := by
  have hl' : cont.length = q * (size * sub) := by rw [hl]; ring
  have hbs := lt_of_mul_lt_l hsub hb
  have hbl : ∀ i, i < q → (block (size * sub) cont i).length = sub * size := fun i hi => by
    rw [block_len' cont hl' hi, Nat.mul_comm]
  have hck : ckDimDiv m cont.length [[size], [sub]] = some () :=
    ck2 m (fits1 (q * sub) hs hbs hl) (fits1 (q * size) hsub (lt_of_mul_lt_r hs hb) (by rw [hl]; ring))
  refine ⟨(List.range q).map fun i => ⟨block (size * sub) cont i, size⟩, ?_, ?_, ?_⟩
  · simp only [LweList.sublistIter, hck, prod2 m hs hsub hb,
      subtensors_ok m (Nat.mul_pos hs hsub) cont hl', Option.bind_eq_bind, Option.bind_some]
    rw [mapM_some _ (fun p => (⟨p, size⟩ : LweList α)), List.map_map]; · rfl
    intro p hp
    obtain ⟨i, hi, rfl⟩ := List.mem_map.1 hp
    simp only [LweList.fromContainer, ck1 m (fits1 sub hs hbs (hbl i (List.mem_range.1 hi)))]; rfl
  · rw [List.map_map, Nat.mul_comm sub size]
    exact splits_blocks cont hl'
  · intro x hx
    obtain ⟨i, hi, rfl⟩ := List.mem_map.1 hx
    refine ⟨rfl, ?_⟩
    have h := hbl i (List.mem_range.1 hi)
    simp only [LweList.count, ck1 m (fits1 sub hs hbs h), divU_ok hs h]; rfl

/-- C57, keyswitching keys: a key for `n` input coefficients. Level `l` of the block of input coefficient
`i` is ciphertext `i * levels + l` of the container. -/
theorem C57_keyswitch_key (m : Build) (cont : List α) (base levels outDim n : Nat) (hlv : 0 < levels)
    (hb : levels * (outDim + 1) < 2 ^ 64) (hl : cont.length = n * (levels * (outDim + 1))) :
    ∃ x : KeyswitchKey α, KeyswitchKey.fromContainer m cont base levels outDim = some x ∧
      x.tensor = cont ∧ x.inputDimension m = some n ∧ x.outputDimension m = some outDim ∧
      x.levelCount = levels ∧ x.baseLog = base ∧
      (∃ blocks, x.bitDecompIter m = some blocks ∧ blocks.length = n ∧
        ∀ i l j : Nat, i < n → l < levels → j < outDim + 1 → ∃ b cts ct v,
          blocks[i]? = some b ∧ b.lweSize = outDim + 1 ∧ b.count m = some levels ∧
          b.ciphertextIter m = some cts ∧ cts[l]? = some ct ∧ ct[j]? = some v ∧
          cont[(i * levels + l) * (outDim + 1) + j]? = some v) ∧
      (∀ f, InPlace (levels * (outDim + 1)) f → ∃ y, x.updateBitDecomp m f = some y ∧
        Rewritten n (levels * (outDim + 1)) f cont y.tensor) := by
  have ho : 0 < outDim + 1 := Nat.succ_pos _
  have hbo := lt_of_mul_lt_r hlv hb
  have hck : ckDimDiv m cont.length [[outDim + 1], [levels]] = some () :=
    ck2 m (fits1 (n * levels) ho hbo (by rw [hl]; ring))
      (fits1 (n * (outDim + 1)) hlv (lt_of_mul_lt_l ho hb) (by rw [hl]; ring))
  have hp := prod2 m hlv ho hb
  have hp' : prodU m [outDim + 1, levels] = some ((outDim + 1) * levels) :=
    prod2 m ho hlv (by rw [Nat.mul_comm]; exact hb)
  have hpos := Nat.mul_pos hlv ho
  have hst := subtensors_ok m hpos cont hl
  refine ⟨⟨cont, base, levels, outDim + 1⟩, ?_, rfl, ?_, ?_, rfl, rfl,
    ⟨(List.range n).map fun i => ⟨block (levels * (outDim + 1)) cont i, outDim + 1⟩, ?_, by simp, ?_⟩, ?_⟩
  · simp only [KeyswitchKey.fromContainer, hck]; rfl
  · simp only [KeyswitchKey.inputDimension, hp', Option.bind_eq_bind, Option.bind_some]
    exact divU_ok (Nat.mul_pos ho hlv) (by rw [hl]; ring)
  · exact subU_ok m ho hbo
  · simp only [KeyswitchKey.bitDecompIter, hck, hp, hst, Option.bind_eq_bind, Option.bind_some,
      List.map_map]
    rfl
  · intro i l j hi hlt hj
    have hbl := block_len' cont hl hi
    have hidx : (i * levels + l) * (outDim + 1) + j < cont.length := by
      rw [hl, ← Nat.mul_assoc]; exact idx_lt (idx_lt hi hlt) hj
    refine ⟨_, (List.range levels).map (block (outDim + 1) (block (levels * (outDim + 1)) cont i)),
      block (outDim + 1) (block (levels * (outDim + 1)) cont i) l, cont[_]'hidx, range_map_get _ hi, rfl, ?_, ?_,
      range_map_get _ hlt, ?_, List.getElem?_eq_getElem hidx⟩
    · simp only [LweList.count, ck1 m (fits1 levels ho hbo hbl), divU_ok ho hbl]; rfl
    · simp only [LweList.ciphertextIter, ck1 m (fits1 levels ho hbo hbl), subtensors_ok m ho _ hbl]; rfl
    · rw [block_getElem? _ _ _ _ hj, block_getElem? _ _ _ _ (idx_lt hlt hj),
        ← List.getElem?_eq_getElem hidx]
      congr 1; ring
  · intro f hf
    obtain ⟨t, ht, hr⟩ := updateSubtensors_ok m hpos cont hl f hf
    refine ⟨⟨t, base, levels, outDim + 1⟩, ?_, hr⟩
    simp only [KeyswitchKey.updateBitDecomp, hck, hp, ht, Option.bind_eq_bind, Option.bind_some]

/-- C57: an allocated keyswitching key is the key of a constant container of the right length. -/
theorem C57_keyswitch_key_allocate (m : Build) (v : α) (base levels outDim n : Nat) (hlv : 0 < levels)
    (hb : levels * (outDim + 1) < 2 ^ 64) (hn : n * (levels * (outDim + 1)) < 2 ^ 64) :
    ∃ x, KeyswitchKey.allocate m v levels base n outDim = some x ∧
      KeyswitchKey.fromContainer m (List.replicate (n * (levels * (outDim + 1))) v) base levels outDim =
        some x := by
  obtain ⟨x, hx, ht, -⟩ := C57_keyswitch_key m (List.replicate (n * (levels * (outDim + 1))) v) base levels
    outDim n hlv hb (by simp)
  refine ⟨x, ?_, hx⟩
  have hx' : x = ⟨List.replicate (n * (levels * (outDim + 1))) v, base, levels, outDim + 1⟩ := by
    simp only [KeyswitchKey.fromContainer, Option.bind_eq_bind] at hx
    rcases Option.bind_eq_some_iff.1 hx with ⟨_, _, h⟩
    exact (Option.some.inj h).symm
  have hp : prodU m [levels, outDim + 1, n] = some (n * (levels * (outDim + 1))) := by
    have := foldlM_append_last m [levels, outDim + 1] n (by simp [hlv]) (by simpa using hb)
      (by simpa [Nat.mul_comm] using hn)
    simpa [Nat.mul_comm] using this
  simp only [KeyswitchKey.allocate, hp, hx', Option.bind_eq_bind, Option.bind_some]

example : ∃ x, KeyswitchKey.fromContainer .debug (List.range 12) 4 2 1 = some x ∧
    x.inputDimension .debug = some 3 ∧ x.outputDimension .debug = some 1 :=
  ⟨_, rfl, by decide, by decide⟩

/-- C57: an allocated list of LWE ciphertexts. -/
theorem C57_lwe_list_allocate (m : Build) (v : α) (size n : Nat) (hs : 0 < size) (hb : size < 2 ^ 64)
    (hn : n * size < 2 ^ 64) :
    LweList.allocate m v size n = LweList.fromContainer m (List.replicate (n * size) v) size := by
  have hp : prodU m [size, n] = some (n * size) := by
    have := foldlM_append_last m [size] n (by simp [hs]) (by simpa using hb)
      (by simpa [Nat.mul_comm] using hn)
    simpa [Nat.mul_comm] using this
  have hck : ckDimDiv m (List.replicate (n * size) v).length [[size]] = some () :=
    ck1 m (fits1 n hs hb (by simp))
  simp only [LweList.allocate, LweList.fromContainer, hp, hck, Option.bind_eq_bind, Option.bind_some]

/-- C57, seeded keyswitching keys: one body per level and input coefficient. -/
theorem C57_seeded_keyswitch_key (m : Build) (v : α) (base levels outDim n seed : Nat) (hlv : 0 < levels)
    (hb : levels < 2 ^ 64) (ho : outDim + 1 < 2 ^ 64) (hn : n * levels < 2 ^ 64) :
    ∃ x : SeededKeyswitchKey α, SeededKeyswitchKey.allocate m v levels base n outDim seed = some x ∧
      x.tensor.length = n * levels ∧ (∀ e ∈ x.tensor, e = v) ∧ x.inputDimension = some n ∧
      x.outputDimension m = some outDim ∧ x.levelCount = levels ∧ x.baseLog = base ∧ x.seed = seed ∧
      ∃ blocks, x.bitDecompIter m = some blocks ∧ Splits x.tensor n levels blocks := by
  have hp : prodU m [levels, n] = some (n * levels) := by
    have := foldlM_append_last m [levels] n (by simp [hlv]) (by simpa using hb)
      (by simpa [Nat.mul_comm] using hn)
    simpa [Nat.mul_comm] using this
  have hl : (List.replicate (n * levels) v).length = n * levels := by simp
  refine ⟨⟨List.replicate (n * levels) v, base, levels, outDim + 1, seed⟩, ?_, hl,
    fun e he => (List.mem_replicate.1 he).2, divU_ok hlv hl, subU_ok m (Nat.succ_pos _) ho, rfl, rfl, rfl, _, ?_,
    splits_blocks _ hl⟩
  · simp only [SeededKeyswitchKey.allocate, hp, Option.bind_eq_bind, Option.bind_some]
  · simp only [SeededKeyswitchKey.bitDecompIter, ck1 m (fits1 n hlv hb hl), subtensors_ok m hlv _ hl]; rfl

/-! ### GLWE -/

/-- C57, GLWE ciphertexts: the container is the `dim` mask polynomials followed by the body. -/
theorem C57_glwe (m : Build) (cont : List α) (N dim : Nat) (hN : 0 < N) (hb : (dim + 1) * N < 2 ^ 64)
    (hl : cont.length = (dim + 1) * N) :
    ∃ mask body polys, (GlweCiphertext.fromContainer cont N).size = some (dim + 1) ∧
      (GlweCiphertext.fromContainer cont N).maskSize m = some dim ∧
      (GlweCiphertext.fromContainer cont N).getMask m = some mask ∧
      (GlweCiphertext.fromContainer cont N).getBody m = some body ∧
      (GlweCiphertext.fromContainer cont N).polynomialIter m = some polys ∧
      mask ++ body = cont ∧ mask.length = dim * N ∧ body.length = N ∧ Splits cont (dim + 1) N polys := by
  have hsz : (GlweCiphertext.fromContainer cont N).size = some (dim + 1) := divU_ok hN hl
  have hd := lt_of_mul_lt_l hN hb
  have hms : (GlweCiphertext.fromContainer cont N).maskSize m = some dim := by
    simp only [GlweCiphertext.maskSize, hsz, Option.bind_eq_bind, Option.bind_some]
    exact subU_ok m (Nat.succ_pos _) hd
  have hle : dim * N ≤ cont.length := by rw [hl]; exact Nat.mul_le_mul_right _ (Nat.le_succ _)
  have hp : prodU m [dim, N] = some (dim * N) := by
    rcases Nat.eq_zero_or_pos dim with h | h
    · subst h
      simp only [prodU, List.foldlM_cons, mulU_ok m (show 1 * 0 < 2 ^ 64 by norm_num), List.foldlM_nil,
        Option.bind_eq_bind, Option.bind_some, Nat.mul_zero, Nat.zero_mul]
      rw [mulU_ok m (by simp)]; simp
    · exact prod2 m h hN (lt_of_le_of_lt hle (hl ▸ hb))
  refine ⟨cont.take (dim * N), cont.drop (dim * N), _, hsz, hms, ?_, ?_, subtensors_ok m hN cont hl,
    List.take_append_drop _ _, by simp [hle], by rw [List.length_drop, hl, Nat.succ_mul]; omega,
    splits_blocks cont hl⟩
  · simp only [GlweCiphertext.getMask, hms, Option.bind_eq_bind, Option.bind_some]
    simp only [GlweCiphertext.fromContainer, hp, Option.bind_some]
    exact if_pos hle
  · simp only [GlweCiphertext.getBody, hms, Option.bind_eq_bind, Option.bind_some]
    simp only [GlweCiphertext.fromContainer, hp, Option.bind_some]
    exact if_pos hle

/-- C57, lists of GLWE ciphertexts. -/
theorem C57_glwe_list (m : Build) (cont : List α) (N dim n : Nat) (hN : 0 < N)
    (hb : (dim + 1) * N < 2 ^ 64) (hl : cont.length = n * ((dim + 1) * N)) :
    ∃ x : GlweList α, GlweList.fromContainer m cont dim N = some x ∧ x.tensor = cont ∧
      x.polySize = N ∧ x.glweSize = dim + 1 ∧ x.glweDimension m = some dim ∧ x.count m = some n ∧
      (∃ cts, x.ciphertextIter m = some cts ∧
        Splits cont n ((dim + 1) * N) (cts.map GlweCiphertext.tensor) ∧ ∀ c ∈ cts, c.polySize = N) ∧
      (∀ f, InPlace ((dim + 1) * N) f → ∃ y, x.updateCiphertexts m f = some y ∧
        Rewritten n ((dim + 1) * N) f cont y.tensor) := by
  have ho : 0 < dim + 1 := Nat.succ_pos _
  have hck : ckDimDiv m cont.length [[dim + 1], [N]] = some () :=
    ck2 m (fits1 (n * N) ho (lt_of_mul_lt_l hN hb) (by rw [hl]; ring))
      (fits1 (n * (dim + 1)) hN (lt_of_mul_lt_r ho hb) (by rw [hl]; ring))
  have hp := prod2 m ho hN hb
  have hpos := Nat.mul_pos ho hN
  refine ⟨⟨cont, dim + 1, N⟩, ?_, rfl, rfl, rfl, subU_ok m ho (lt_of_mul_lt_l hN hb), ?_,
    ⟨(List.range n).map fun i => ⟨block ((dim + 1) * N) cont i, N⟩, ?_, ?_, ?_⟩, ?_⟩
  · simp only [GlweList.fromContainer, hck]; rfl
  · simp only [GlweList.count, hck, hp, divU_ok hpos hl, Option.bind_eq_bind, Option.bind_some]
  · simp only [GlweList.ciphertextIter, hck, hp, subtensors_ok m hpos cont hl, Option.bind_eq_bind,
      Option.bind_some, List.map_map]
    rfl
  · rw [List.map_map]; exact splits_blocks cont hl
  · intro c hc
    obtain ⟨i, _, rfl⟩ := List.mem_map.1 hc; rfl
  · intro f hf
    obtain ⟨t, ht, hr⟩ := updateSubtensors_ok m hpos cont hl f hf
    exact ⟨⟨t, dim + 1, N⟩, by simp only [GlweList.updateCiphertexts, hck, hp, ht, Option.bind_eq_bind, Option.bind_some], hr⟩

/-- C57: an allocated list of GLWE ciphertexts. -/
theorem C57_glwe_list_allocate (m : Build) (v : α) (N dim n : Nat) (hN : 0 < N)
    (hb : (dim + 1) * N < 2 ^ 64) (hn : n * ((dim + 1) * N) < 2 ^ 64) :
    GlweList.allocate m v N dim n =
      GlweList.fromContainer m (List.replicate (n * ((dim + 1) * N)) v) dim N := by
  have ho : 0 < dim + 1 := Nat.succ_pos _
  have hp : prodU m [N, dim + 1, n] = some (n * ((dim + 1) * N)) := by
    have := foldlM_append_last m [N, dim + 1] n (by simp [hN]) (by simpa [Nat.mul_comm] using hb)
      (by simpa [Nat.mul_comm] using hn)
    simpa [Nat.mul_comm, Nat.mul_assoc] using this
  have hck : ckDimDiv m (List.replicate (n * ((dim + 1) * N)) v).length [[dim + 1], [N]] = some () :=
    ck2 m (fits1 (n * N) ho (lt_of_mul_lt_l hN hb) (by rw [List.length_replicate]; ring))
      (fits1 (n * (dim + 1)) hN (lt_of_mul_lt_r ho hb) (by rw [List.length_replicate]; ring))
  simp only [GlweList.allocate, GlweList.fromContainer, hp, hck, Option.bind_eq_bind, Option.bind_some]

/-- C57, seeded lists of GLWE ciphertexts: one body of `N` coefficients per ciphertext. -/
theorem C57_glwe_seeded_list (m : Build) (v : α) (N dim n seed : Nat) (hN : 0 < N) (hb : N < 2 ^ 64)
    (hn : n * N < 2 ^ 64) :
    ∃ x : GlweSeededList α, GlweSeededList.allocate m v N dim n seed = some x ∧
      (∀ e ∈ x.tensor, e = v) ∧ x.glweDim = dim ∧ x.polySize = N ∧ x.seed = seed ∧ x.count m = some n ∧
      ∃ bodies, x.bodyIter = some bodies ∧ Splits x.tensor n N bodies := by
  have hp : prodU m [N, n] = some (n * N) := by
    have := foldlM_append_last m [N] n (by simp [hN]) (by simpa using hb)
      (by simpa [Nat.mul_comm] using hn)
    simpa [Nat.mul_comm] using this
  have hl : (List.replicate (n * N) v).length = n * N := by simp
  refine ⟨⟨List.replicate (n * N) v, dim, N, seed⟩, ?_, fun e he => (List.mem_replicate.1 he).2, rfl, rfl, rfl,
    ?_, _, ?_, splits_blocks _ hl⟩
  · simp only [GlweSeededList.allocate, hp, Option.bind_eq_bind, Option.bind_some]
  · simp only [GlweSeededList.count, ck1 m (fits1 n hN hb hl), divU_ok hN hl]; rfl
  · simp only [GlweSeededList.bodyIter, if_neg (Nat.ne_of_gt hN), chunks_eq N hN n _ hl]

/-- C57: a GLWE secret key reports the dimension it was generated with, when the generator returns as many
coefficients as it is asked for. -/
theorem C57_glwe_secret_key (m : Build) (draw : Nat → List α) (hd : ∀ k, (draw k).length = k) (dim N : Nat)
    (hN : 0 < N) (hb : N < 2 ^ 64) (hn : dim * N < 2 ^ 64) :
    ∃ x : GlweSecretKey α, GlweSecretKey.generate m draw dim N = some x ∧ x.polySize = N ∧
      x.keySize = some dim := by
  have hp : prodU m [N, dim] = some (dim * N) := by
    have := foldlM_append_last m [N] dim (by simp [hN]) (by simpa using hb)
      (by simpa [Nat.mul_comm] using hn)
    simpa [Nat.mul_comm] using this
  refine ⟨⟨draw (dim * N), N⟩, ?_, rfl, divU_ok hN (hd _)⟩
  simp only [GlweSecretKey.generate, hp, Option.bind_eq_bind, Option.bind_some]

/-! ### GGSW ciphertexts and bootstrapping keys -/

/-- C57, GGSW ciphertexts: `levels` matrices of `G` rows of `G` polynomials of `N` coefficients, the
matrices being numbered from 1. -/
theorem C57_ggsw (m : Build) (cont : List α) (N G levels base : Nat) (hN : 0 < N) (hG : 0 < G)
    (hb : G * G * N < 2 ^ 64) (hl : cont.length = levels * (G * G * N)) :
    ∃ x : Ggsw α, Ggsw.fromContainer m cont G N base = some x ∧ x.tensor = cont ∧ x.polySize = N ∧
      x.glweSize = G ∧ x.baseLog = base ∧ x.levelCount m = some levels ∧
      (∃ g, x.asGlweList m = some g ∧ g.tensor = cont ∧ g.polySize = N ∧ g.glweSize = G ∧
        g.count m = some (levels * G)) ∧
      ∃ mats, x.levelMatrixIter m = some mats ∧ mats.length = levels ∧
        ∀ l r c k : Nat, l < levels → r < G → c < G → k < N → ∃ mat rows row polys p v,
          mats[l]? = some mat ∧ mat.level = l + 1 ∧ mat.polySize = N ∧ mat.glweSize = G ∧
          mat.rowIter m = some rows ∧ rows.length = G ∧ rows[r]? = some row ∧ row.level = l + 1 ∧
          row.intoGlwe.size = some G ∧ row.intoGlwe.polynomialIter m = some polys ∧ polys.length = G ∧
          polys[c]? = some p ∧ p.length = N ∧ p[k]? = some v ∧
          cont[((l * G + r) * G + c) * N + k]? = some v := by
  have hGG : 0 < G * G := Nat.mul_pos hG hG
  have hpos : 0 < G * G * N := Nat.mul_pos hGG hN
  have hbGG := lt_of_mul_lt_l hN hb
  have hbN := lt_of_mul_lt_r hGG hb
  have hbG := lt_of_mul_lt_l hG hbGG
  have hbNG : N * G < 2 ^ 64 := lt_of_mul_lt_l hG (by rw [show N * G * G = G * G * N by ring]; exact hb)
  have hck : ckDimDiv m cont.length [[G], [N], [G, G]] = some () :=
    ck3 m (fits1 (levels * G * N) hG hbG (by rw [hl]; ring)) (fits1 (levels * G * G) hN hbN (by rw [hl]; ring))
      (fits2 (levels * N) hG hG hbGG (by rw [hl]; ring))
  have hl2 : cont.length = levels * (N * G * G) := by rw [hl]; ring
  have hpos2 : 0 < N * G * G := by rw [show N * G * G = G * G * N by ring]; exact hpos
  have hp2 : prodU m [N, G, G] = some (N * G * G) :=
    prod3 m hN hG hG (by rw [show N * G * G = G * G * N by ring]; exact hb)
  have hpr : prodU m [N, G] = some (N * G) := prod2 m hN hG hbNG
  have hposr : 0 < N * G := Nat.mul_pos hN hG
  refine ⟨⟨cont, N, G, base⟩, ?_, rfl, rfl, rfl, rfl, ?_, ?_,
    ⟨(List.range levels).map fun i => ⟨block (N * G * G) cont i, N, G, i + 1⟩, ?_, by simp, ?_⟩⟩
  · simp only [Ggsw.fromContainer, hck]; rfl
  · simp only [Ggsw.levelCount, hck, prod3 m hG hG hN hb, divU_ok hpos hl, Option.bind_eq_bind, Option.bind_some]
  · obtain ⟨g, h1, h2, h3, h4, -, h6, -⟩ := C57_glwe_list m cont N (G - 1) (levels * G) hN
      (by rw [Nat.sub_add_cancel hG, Nat.mul_comm]; exact hbNG) (by rw [Nat.sub_add_cancel hG, hl]; ring)
    refine ⟨g, ?_, h2, h3, by rw [h4, Nat.sub_add_cancel hG], h6⟩
    simp only [Ggsw.asGlweList, subU_ok m hG hbG, Option.bind_eq_bind, Option.bind_some, h1]
  · simp only [Ggsw.levelMatrixIter, hp2, subtensors_ok m hpos2 cont hl2, Option.bind_eq_bind,
      Option.bind_some]
    rw [mapM_some _ (fun p : List α × Nat => (⟨p.1, N, G, p.2 + 1⟩ : GgswLevelMatrix α))]
    · congr 1
      apply List.ext_getElem?
      intro i
      rcases Nat.lt_or_ge i levels with h | h
      · rw [range_map_get _ h, zipIdx_map_get _ _ (range_map_get _ h)]
      · rw [List.getElem?_eq_none (by simpa using h), List.getElem?_eq_none (by simpa using h)]
    · rintro ⟨p, i⟩ hp
      have hm := List.fst_mem_of_mem_zipIdx hp
      obtain ⟨j, hj, rfl⟩ := List.mem_map.1 hm
      have hbl := block_len' cont hl2 (List.mem_range.1 hj)
      simp only [GgswLevelMatrix.fromContainer, ck2 m (fits1 (N * G) hG hbG hbl)
        (fits1 (G * G) hN hbN (by rw [hbl]; ring))]
      rfl
  · intro l r c k hll hr hc hk
    have hbl := block_len' cont hl2 hll
    have hbl' : (block (N * G * G) cont l).length = G * (N * G) := by rw [hbl]; ring
    have hrl := block_len' _ hbl' hr
    have hrl' : (block (N * G) (block (N * G * G) cont l) r).length = G * N := by rw [hrl]; ring
    have hidx : ((l * G + r) * G + c) * N + k < cont.length := by
      rw [hl, show levels * (G * G * N) = levels * G * G * N by ring]
      exact idx_lt (idx_lt (idx_lt hll hr) hc) hk
    refine ⟨_, (List.range G).map fun j => ⟨block (N * G) (block (N * G * G) cont l) j, N, l + 1⟩,
      _, (List.range G).map (block N (block (N * G) (block (N * G * G) cont l) r)),
      block N (block (N * G) (block (N * G * G) cont l) r) c, cont[_]'hidx,
      range_map_get _ hll, rfl, rfl, rfl, ?_, by simp, range_map_get _ hr, rfl, ?_, ?_, by simp,
      range_map_get _ hc, block_len' _ hrl' hc, ?_, List.getElem?_eq_getElem hidx⟩
    · simp only [GgswLevelMatrix.rowIter, hpr, subtensors_ok m hposr _ hbl', Option.bind_eq_bind,
        Option.bind_some]
      rw [mapM_some _ (fun p => (⟨p, N, l + 1⟩ : GgswLevelRow α)), List.map_map]; · rfl
      intro p hp
      obtain ⟨j, hj, rfl⟩ := List.mem_map.1 hp
      simp only [GgswLevelRow.fromContainer, ck1 m (fits1 G hN hbN
        (show (block (N * G) (block (N * G * G) cont l) j).length = G * N by
          rw [block_len' _ hbl' (List.mem_range.1 hj)]; ring))]
      rfl
    · exact divU_ok hN hrl'
    · exact subtensors_ok m hN _ hrl'
    · have h1 : c * N + k < N * G := by rw [Nat.mul_comm N G]; exact idx_lt hc hk
      have h2 : r * (N * G) + (c * N + k) < N * G * G := by
        rw [Nat.mul_comm (N * G) G]; exact idx_lt hr h1
      rw [block_getElem? _ _ _ _ hk, block_getElem? _ _ _ _ h1, block_getElem? _ _ _ _ h2,
        ← List.getElem?_eq_getElem hidx]
      congr 1; ring

/-- C57: allocated GLWE and GGSW ciphertexts. -/
theorem C57_ggsw_allocate (m : Build) (v : α) (N G levels base : Nat) (hN : 0 < N) (hG : 0 < G)
    (hlv : 0 < levels) (hb : levels * (G * G * N) < 2 ^ 64) :
    Ggsw.allocate m v N G levels base =
        Ggsw.fromContainer m (List.replicate (levels * (G * G * N)) v) G N base ∧
      GlweCiphertext.allocate m v N G = some (GlweCiphertext.fromContainer (List.replicate (G * N) v) N) := by
  have hGG : 0 < G * G := Nat.mul_pos hG hG
  have hb1 := lt_of_mul_lt_r hlv hb
  have hb2 : N * G < 2 ^ 64 := lt_of_mul_lt_l hG (by rw [show N * G * G = G * G * N by ring]; exact hb1)
  obtain ⟨x, hx, -⟩ := C57_ggsw m (List.replicate (levels * (G * G * N)) v) N G levels base hN hG hb1 (by simp)
  have hx' := hx
  simp only [Ggsw.fromContainer, Option.bind_eq_bind] at hx'
  obtain ⟨_, _, h⟩ := Option.bind_eq_some_iff.1 hx'
  constructor
  · rw [hx, ← h]
    simp only [Ggsw.allocate, prod4 m hlv hG hG hN
      (by rw [show levels * G * G * N = levels * (G * G * N) by ring]; exact hb), Option.bind_eq_bind,
      Option.bind_some]
    rw [show levels * G * G * N = levels * (G * G * N) by ring]
  · simp only [GlweCiphertext.allocate, prod2 m hN hG hb2, GlweCiphertext.fromContainer, Option.bind_eq_bind,
      Option.bind_some, Nat.mul_comm]

/-- C57, bootstrapping keys: GGSW ciphertext `i` of the key is the one of the container's `i`-th block of
`levels * G * G * N` elements, with the dimensions of the key. -/
theorem C57_bootstrap_key (m : Build) (cont : List α) (N G levels base n : Nat) (hN : 0 < N) (hG : 0 < G)
    (hlv : 0 < levels) (hb : G * G * N * levels < 2 ^ 64) (hl : cont.length = n * (G * G * N * levels)) :
    ∃ x : BootstrapKey α, BootstrapKey.fromContainer m cont G N levels base = some x ∧ x.tensor = cont ∧
      x.polySize = N ∧ x.glweSize = G ∧ x.levelCount = levels ∧ x.baseLog = base ∧ x.keySize m = some n ∧
      (∃ gs, x.ggswIter m = some gs ∧ Splits cont n (G * G * N * levels) (gs.map Ggsw.tensor) ∧
        ∀ g ∈ gs, g.polySize = N ∧ g.glweSize = G ∧ g.baseLog = base ∧ g.levelCount m = some levels) ∧
      (∃ ps, x.polyIter m = some ps ∧ Splits cont (n * levels * G * G) N ps) ∧
      (∀ f, InPlace (G * G * N * levels) f → ∃ y, x.updateGgsw m f = some y ∧
        Rewritten n (G * G * N * levels) f cont y.tensor) := by
  have hGG : 0 < G * G := Nat.mul_pos hG hG
  have hpos : 0 < G * G * N := Nat.mul_pos hGG hN
  have hpos' : 0 < G * G * N * levels := Nat.mul_pos hpos hlv
  have hbG3 := lt_of_mul_lt_l hlv hb
  have hbl := lt_of_mul_lt_r hpos hb
  have hbGG := lt_of_mul_lt_l hN hbG3
  have hbN := lt_of_mul_lt_r hGG hbG3
  have hf1 : Fits cont.length [levels] := fits1 (n * G * G * N) hlv hbl (by rw [hl]; ring)
  have hf2 : Fits cont.length [G, G] := fits2 (n * N * levels) hG hG hbGG (by rw [hl]; ring)
  have hf3 : Fits cont.length [N] := fits1 (n * G * G * levels) hN hbN (by rw [hl]; ring)
  have hp := prod4 m hG hG hN hlv hb
  have hst := subtensors_ok m hpos' cont hl
  have hg : ∀ i, i < n → Ggsw.fromContainer m (block (G * G * N * levels) cont i) G N base =
      some ⟨block (G * G * N * levels) cont i, N, G, base⟩ ∧
      Ggsw.levelCount m ⟨block (G * G * N * levels) cont i, N, G, base⟩ = some levels := by
    intro i hi
    obtain ⟨x, h1, h2, h3, h4, h5, h6, -⟩ := C57_ggsw m (block (G * G * N * levels) cont i) N G levels base hN hG
      hbG3 (by rw [block_len' cont hl hi]; ring)
    have : x = ⟨block (G * G * N * levels) cont i, N, G, base⟩ := by
      cases x; simp only at h2 h3 h4 h5; subst h2 h3 h4 h5; rfl
    rw [this] at h1 h6
    exact ⟨h1, h6⟩
  refine ⟨⟨cont, N, G, levels, base⟩, ?_, rfl, rfl, rfl, rfl, rfl, ?_,
    ⟨(List.range n).map fun i => ⟨block (G * G * N * levels) cont i, N, G, base⟩, ?_, ?_, ?_⟩,
    ⟨_, subtensors_ok m hN cont (by rw [hl]; ring), splits_blocks _ (by rw [hl]; ring)⟩, ?_⟩
  · simp only [BootstrapKey.fromContainer, ck3 m hf1 hf2 hf3]; rfl
  · simp only [BootstrapKey.keySize, ck3 m hf3 hf2 hf1, hp, divU_ok hpos' hl, Option.bind_eq_bind, Option.bind_some]
  · simp only [BootstrapKey.ggswIter, hp, hst, Option.bind_eq_bind, Option.bind_some]
    rw [mapM_some _ (fun p => (⟨p, N, G, base⟩ : Ggsw α)), List.map_map]; · rfl
    intro p hp
    obtain ⟨i, hi, rfl⟩ := List.mem_map.1 hp
    exact (hg i (List.mem_range.1 hi)).1
  · rw [List.map_map]; exact splits_blocks cont hl
  · intro g hgm
    obtain ⟨i, hi, rfl⟩ := List.mem_map.1 hgm
    exact ⟨rfl, rfl, rfl, (hg i (List.mem_range.1 hi)).2⟩
  · intro f hf
    obtain ⟨t, ht, hr⟩ := updateSubtensors_ok m hpos' cont hl f hf
    exact ⟨⟨t, N, G, levels, base⟩, by simp only [BootstrapKey.updateGgsw, hp, ht, Option.bind_eq_bind, Option.bind_some], hr⟩

/-- The coefficient reached from a bootstrapping key by its nested iterators, with the number of the level
it is found in. -/
def BootstrapKey.coefficient (m : Build) (x : BootstrapKey α) (i l r c k : Nat) : Option (Nat × α) := do
  let g ← (← x.ggswIter m)[i]?
  let mat ← (← g.levelMatrixIter m)[l]?
  let row ← (← mat.rowIter m)[r]?
  let p ← (← row.intoGlwe.polynomialIter m)[c]?
  let v ← p[k]?
  some (row.level, v)

/-- C57, layout of a bootstrapping key: coefficient `k` of polynomial `c` of row `r` of level `l + 1` of GGSW
ciphertext `i`. -/
theorem C57_bootstrap_key_layout (m : Build) (cont : List α) (N G levels base n : Nat) (hN : 0 < N)
    (hG : 0 < G) (hlv : 0 < levels) (hb : G * G * N * levels < 2 ^ 64)
    (hl : cont.length = n * (G * G * N * levels)) (i l r c k : Nat) (hi : i < n) (hll : l < levels)
    (hr : r < G) (hc : c < G) (hk : k < N) :
    ∃ x v, BootstrapKey.fromContainer m cont G N levels base = some x ∧
      x.coefficient m i l r c k = some (l + 1, v) ∧
      cont[(((i * levels + l) * G + r) * G + c) * N + k]? = some v := by
  obtain ⟨x, h1, h2, h3, h4, h5, h6, h7, ⟨gs, hgs, hsp, hdim⟩, -⟩ :=
    C57_bootstrap_key m cont N G levels base n hN hG hlv hb hl
  obtain ⟨p, hp1, hp2, hp3⟩ := hsp.part i hi
  rw [List.getElem?_map, Option.map_eq_some_iff] at hp1
  obtain ⟨g, hg1, hg2⟩ := hp1
  obtain ⟨d1, d2, d3, d4⟩ := hdim g (List.mem_of_getElem? hg1)
  obtain ⟨x', e1, e2, e3, e4, e5, e6, e7, mats, hm1, hm2, hm3⟩ := C57_ggsw m p N G levels base hN hG
    (lt_of_mul_lt_l hlv hb) (by rw [hp2]; ring)
  have hgx : g = x' := by
    cases g; cases x'
    simp only at *
    simp [*]
  obtain ⟨mat, rows, row, polys, q, v, f1, f2, f3, f4, f5, f6, f7, f8, f9, f10, f11, f12, f13, f14, f15⟩ :=
    hm3 l r c k hll hr hc hk
  refine ⟨x, v, h1, ?_, ?_⟩
  · simp only [BootstrapKey.coefficient, hgs, Option.bind_eq_bind, Option.bind_some, hg1, hgx, hm1, f1, f5,
      f7, f10, f12, f14, f8]
  · have hlt : ((l * G + r) * G + c) * N + k < G * G * N * levels := by
      rw [show G * G * N * levels = levels * G * G * N by ring]
      exact idx_lt (idx_lt (idx_lt hll hr) hc) hk
    rw [← f15, hp3 _ hlt]
    congr 1; ring

/-- C57: an allocated bootstrapping key. -/
theorem C57_bootstrap_key_allocate (m : Build) (v : α) (N G levels base n : Nat) (hN : 0 < N)
    (hG : 0 < G) (hlv : 0 < levels) (hn0 : 0 < n) (hn : n * (G * G * N * levels) < 2 ^ 64) :
    BootstrapKey.allocate m v G N levels base n =
      BootstrapKey.fromContainer m (List.replicate (n * (G * G * N * levels)) v) G N levels base := by
  have hGG : 0 < G * G := Nat.mul_pos hG hG
  have hpos : 0 < G * G * N := Nat.mul_pos hGG hN
  have hb := lt_of_mul_lt_r hn0 hn
  have hbG3 := lt_of_mul_lt_l hlv hb
  have hp : prodU m [n, levels, G, G, N] = some (n * (G * G * N * levels)) :=
    prodU_eq m _ (by simp [hN, hG, hlv, hn0]) (by simp only [List.prod_cons, List.prod_nil]; ring) hn
  have hck := ck3 m (a := [levels]) (b := [G, G]) (c := [N])
    (len := (List.replicate (n * (G * G * N * levels)) v).length)
    (fits1 (n * G * G * N) hlv (lt_of_mul_lt_r hpos hb) (by rw [List.length_replicate]; ring))
    (fits2 (n * N * levels) hG hG (lt_of_mul_lt_l hN hbG3) (by rw [List.length_replicate]; ring))
    (fits1 (n * G * G * levels) hN (lt_of_mul_lt_r hGG hbG3) (by rw [List.length_replicate]; ring))
  simp only [BootstrapKey.allocate, BootstrapKey.fromContainer, hp, hck, Option.bind_eq_bind,
    Option.bind_some]

example : ∃ x, BootstrapKey.fromContainer .debug (List.range 48) 2 2 3 7 = some x ∧
    x.keySize .debug = some 2 ∧ x.coefficient .debug 1 2 0 1 1 = some (3, 43) :=
  ⟨_, rfl, by decide, by decide⟩

/-- C57, seeded GGSW ciphertexts: `levels` matrices of `G` bodies of `N` coefficients. -/
theorem C57_ggsw_seeded (m : Build) (cont : List α) (N G levels base seed : Nat) (hN : 0 < N) (hG : 0 < G)
    (hb : G * N < 2 ^ 64) (hl : cont.length = levels * (G * N)) :
    ∃ x : GgswSeeded α, GgswSeeded.fromContainer m cont N G base seed = some x ∧ x.tensor = cont ∧
      x.polySize = N ∧ x.glweSize = G ∧ x.baseLog = base ∧ x.seed = seed ∧ x.levelCount m = some levels ∧
      ∃ mats, x.levelRows m = some mats ∧ mats.length = levels ∧
        ∀ l r k : Nat, l < levels → r < G → k < N → ∃ rows body v,
          mats[l]? = some (l + 1, rows) ∧ rows.length = G ∧ rows[r]? = some body ∧ body.length = N ∧
          body[k]? = some v ∧ cont[(l * G + r) * N + k]? = some v := by
  have hpos : 0 < G * N := Nat.mul_pos hG hN
  have hbN := lt_of_mul_lt_r hG hb
  have hf1 : Fits cont.length [N] := fits1 (levels * G) hN hbN (by rw [hl]; ring)
  have hf2 : Fits cont.length [G] := fits1 (levels * N) hG (lt_of_mul_lt_l hN hb) (by rw [hl]; ring)
  have hl2 : cont.length = levels * (N * G) := by rw [hl]; ring
  have hp2 : prodU m [N, G] = some (N * G) := prod2 m hN hG (by rw [Nat.mul_comm]; exact hb)
  have hpos2 : 0 < N * G := Nat.mul_pos hN hG
  have hbl : ∀ i, i < levels → (block (N * G) cont i).length = G * N := fun i hi => by
    rw [block_len' cont hl2 hi]; ring
  refine ⟨⟨cont, G, N, base, seed⟩, ?_, rfl, rfl, rfl, rfl, rfl, ?_,
    ⟨(List.range levels).map fun i => (i + 1, (List.range G).map (block N (block (N * G) cont i))), ?_, by simp,
      ?_⟩⟩
  · simp only [GgswSeeded.fromContainer, ck2 m hf1 hf2]; rfl
  · simp only [GgswSeeded.levelCount, ck2 m hf2 hf1, prod2 m hG hN hb, Option.bind_eq_bind,
      Option.bind_some]
    exact divU_ok hpos hl
  · simp only [GgswSeeded.levelRows, hp2, subtensors_ok m hpos2 cont hl2, Option.bind_eq_bind,
      Option.bind_some]
    rw [mapM_some _ (fun p : List α × Nat => (p.2 + 1, (List.range G).map (block N p.1)))]
    · congr 1
      apply List.ext_getElem?
      intro i
      rcases Nat.lt_or_ge i levels with h | h
      · rw [range_map_get _ h, zipIdx_map_get _ _ (range_map_get _ h)]
      · rw [List.getElem?_eq_none (by simpa using h), List.getElem?_eq_none (by simpa using h)]
    · rintro ⟨p, i⟩ hp
      have hm := List.fst_mem_of_mem_zipIdx hp
      obtain ⟨j, hj, rfl⟩ := List.mem_map.1 hm
      have h := hbl j (List.mem_range.1 hj)
      simp only [ck1 m (fits1 G hN hbN h), subtensors_ok m hN _ h, Option.bind_some]
  · intro l r k hll hr hk
    have hidx : (l * G + r) * N + k < cont.length := by
      rw [hl, ← Nat.mul_assoc]; exact idx_lt (idx_lt hll hr) hk
    refine ⟨_, block N (block (N * G) cont l) r, cont[_]'hidx, range_map_get _ hll, by simp,
      range_map_get _ hr, block_len' _ (hbl l hll) hr, ?_, List.getElem?_eq_getElem hidx⟩
    have h1 : r * N + k < N * G := by rw [Nat.mul_comm N G]; exact idx_lt hr hk
    rw [block_getElem? _ _ _ _ hk, block_getElem? _ _ _ _ h1, ← List.getElem?_eq_getElem hidx]
    congr 1; ring

/-- C57: an allocated seeded GGSW ciphertext. -/
theorem C57_ggsw_seeded_allocate (m : Build) (v : α) (N G levels base seed : Nat) (hN : 0 < N)
    (hG : 0 < G) (hlv : 0 < levels) (hb : levels * (G * N) < 2 ^ 64) :
    GgswSeeded.allocate m v N G levels base seed =
      GgswSeeded.fromContainer m (List.replicate (levels * (G * N)) v) N G base seed := by
  simp only [GgswSeeded.allocate, prod3 m hlv hG hN (by rw [Nat.mul_assoc]; exact hb), Nat.mul_assoc,
    Option.bind_eq_bind, Option.bind_some]

/-- C57, seeded bootstrapping keys: dimensions, and the position of each body coefficient. -/
theorem C57_seeded_bootstrap_key (m : Build) (v : α) (N G levels base n seed : Nat) (hN : 0 < N)
    (hG : 0 < G) (hlv : 0 < levels) (hn0 : 0 < n) (hb : n * (G * N * levels) < 2 ^ 64) :
    ∃ x : SeededBootstrapKey α, SeededBootstrapKey.allocate m v G N levels base n seed = some x ∧
      (∀ e ∈ x.tensor, e = v) ∧ x.polySize = N ∧ x.glweSize = G ∧ x.levelCount = levels ∧
      x.baseLog = base ∧ x.seed = seed ∧ x.keySize m = some n ∧
      ∃ gs, x.ggswIter m = some gs ∧ Splits x.tensor n (G * N * levels) (gs.map GgswSeeded.tensor) ∧
        ∀ g ∈ gs, g.polySize = N ∧ g.glweSize = G ∧ g.baseLog = base ∧ g.seed = seed ∧
          g.levelCount m = some levels := by
  have hp0 : prodU m [n, levels, G, N] = some (n * (G * N * levels)) :=
    prodU_eq m _ (by simp [hN, hG, hlv, hn0]) (by simp only [List.prod_cons, List.prod_nil]; ring) hb
  have hb1 := lt_of_mul_lt_r hn0 hb
  have hGN : 0 < G * N := Nat.mul_pos hG hN
  have hb2 := lt_of_mul_lt_l hlv hb1
  have hpos : 0 < G * N * levels := Nat.mul_pos hGN hlv
  obtain ⟨cont, hcont⟩ : ∃ c : List α, c = List.replicate (n * (G * N * levels)) v := ⟨_, rfl⟩
  have hl : cont.length = n * (G * N * levels) := by rw [hcont]; simp
  have hg : ∀ i, i < n → GgswSeeded.fromContainer m (block (G * N * levels) cont i) N G base seed =
      some ⟨block (G * N * levels) cont i, G, N, base, seed⟩ ∧
      GgswSeeded.levelCount m ⟨block (G * N * levels) cont i, G, N, base, seed⟩ = some levels := by
    intro i hi
    obtain ⟨x, h1, h2, h3, h4, h5, h6, h7, -⟩ := C57_ggsw_seeded m (block (G * N * levels) cont i) N G levels
      base seed hN hG hb2 (by rw [block_len' cont hl hi]; ring)
    have : x = ⟨block (G * N * levels) cont i, G, N, base, seed⟩ := by
      cases x; simp only at h2 h3 h4 h5 h6; subst h2 h3 h4 h5 h6; rfl
    rw [this] at h1 h7
    exact ⟨h1, h7⟩
  refine ⟨⟨cont, N, G, levels, base, seed⟩, ?_, ?_, rfl, rfl, rfl, rfl, rfl, ?_,
    (List.range n).map fun i => ⟨block (G * N * levels) cont i, G, N, base, seed⟩, ?_, ?_, ?_⟩
  · simp only [SeededBootstrapKey.allocate, hp0, hcont, Option.bind_eq_bind, Option.bind_some]
  · intro e he
    rw [hcont] at he
    exact (List.mem_replicate.1 he).2
  · simp only [SeededBootstrapKey.keySize, ck3 m (len := cont.length)
      (fits1 (n * G * levels) hN (lt_of_mul_lt_r hG hb2) (by rw [hl]; ring))
      (fits1 (n * N * levels) hG (lt_of_mul_lt_l hN hb2) (by rw [hl]; ring))
      (fits1 (n * G * N) hlv (lt_of_mul_lt_r hGN hb1) (by rw [hl]; ring)), prod3 m hG hN hlv hb1,
      Option.bind_eq_bind, Option.bind_some]
    exact divU_ok hpos hl
  · simp only [SeededBootstrapKey.ggswIter, prod3 m hG hN hlv hb1, subtensors_ok m hpos cont hl,
      Option.bind_eq_bind, Option.bind_some]
    rw [mapM_some _ (fun p => (⟨p, G, N, base, seed⟩ : GgswSeeded α)), List.map_map]; · rfl
    intro p hp
    obtain ⟨i, hi, rfl⟩ := List.mem_map.1 hp
    exact (hg i (List.mem_range.1 hi)).1
  · rw [List.map_map]; exact splits_blocks cont hl
  · intro g hgm
    obtain ⟨i, hi, rfl⟩ := List.mem_map.1 hgm
    exact ⟨rfl, rfl, rfl, rfl, (hg i (List.mem_range.1 hi)).2⟩

/-! ### Packing keyswitch keys -/

/-- C57, packing keyswitch keys: a key of `n` blocks. The public key has one block per input mask
coefficient; the private functional key has one more, for the body. Level `l` of block `i` is GLWE
ciphertext `i * levels + l`. -/
theorem C57_packing_key (m : Build) (cont : List α) (base levels outDim N n : Nat) (hlv : 0 < levels)
    (hN : 0 < N) (hb : levels * (outDim + 1) * N < 2 ^ 64) (hn64 : n < 2 ^ 64)
    (hl : cont.length = n * (levels * (outDim + 1) * N)) :
    ∃ x : PackingKey α, PackingKey.fromContainer m cont base levels outDim N = some x ∧ x.tensor = cont ∧
      x.outputDimension m = some outDim ∧ x.polySize = N ∧ x.levelCount = levels ∧ x.baseLog = base ∧
      x.inputDimension m = some n ∧ (0 < n → x.inputDimensionPrivate m = some (n - 1)) ∧
      ∃ blocks, x.bitDecompIter m = some blocks ∧ blocks.length = n ∧
        ∀ i l k : Nat, i < n → l < levels → k < (outDim + 1) * N → ∃ b cts ct v,
          blocks[i]? = some b ∧ b.polySize = N ∧ b.glweSize = outDim + 1 ∧ b.count m = some levels ∧
          b.ciphertextIter m = some cts ∧ cts[l]? = some ct ∧ ct.polySize = N ∧
          ct.size = some (outDim + 1) ∧ ct.tensor[k]? = some v ∧
          cont[(i * levels + l) * ((outDim + 1) * N) + k]? = some v := by
  have ho : 0 < outDim + 1 := Nat.succ_pos _
  have hLo : 0 < levels * (outDim + 1) := Nat.mul_pos hlv ho
  have hpos : 0 < levels * (outDim + 1) * N := Nat.mul_pos hLo hN
  have hoN : 0 < (outDim + 1) * N := Nat.mul_pos ho hN
  have hb' : levels * ((outDim + 1) * N) < 2 ^ 64 := by rw [← Nat.mul_assoc]; exact hb
  have hboN := lt_of_mul_lt_r hlv hb'
  have hbl := lt_of_mul_lt_l hoN hb'
  have hbo := lt_of_mul_lt_l hN hboN
  have hck : ckDimDiv m cont.length [[outDim + 1, N], [levels]] = some () :=
    ck2 m (fits2 (n * levels) ho hN hboN (by rw [hl]; ring))
      (fits1 (n * ((outDim + 1) * N)) hlv hbl (by rw [hl]; ring))
  have hb3 : (outDim + 1) * N * levels < 2 ^ 64 := by rw [Nat.mul_comm]; exact hb'
  have hin : PackingKey.inputDimension m (⟨cont, base, levels, outDim + 1, N⟩ : PackingKey α) = some n := by
    simp only [PackingKey.inputDimension, prod3 m ho hN hlv hb3, Option.bind_eq_bind, Option.bind_some]
    exact divU_ok (Nat.mul_pos hoN hlv) (by rw [hl]; ring)
  refine ⟨⟨cont, base, levels, outDim + 1, N⟩, ?_, rfl, subU_ok m ho hbo, rfl, rfl, rfl, hin, ?_,
    (List.range n).map fun i => ⟨block (levels * (outDim + 1) * N) cont i, outDim + 1, N⟩, ?_, by simp, ?_⟩
  · simp only [PackingKey.fromContainer, hck]; rfl
  · intro hn
    have hn' : divU cont.length ((outDim + 1) * N * levels) = some n :=
      divU_ok (Nat.mul_pos hoN hlv) (by rw [hl]; ring)
    simp only [PackingKey.inputDimensionPrivate, prod3 m ho hN hlv hb3, hn', Option.bind_eq_bind,
      Option.bind_some]
    exact subU_ok m hn hn64
  · simp only [PackingKey.bitDecompIter, hck, prod3 m hlv ho hN hb, subtensors_ok m hpos cont hl,
      Option.bind_eq_bind, Option.bind_some, List.map_map]
    rfl
  · intro i l k hi hll hk
    have hbll : (block (levels * (outDim + 1) * N) cont i).length = levels * ((outDim + 1) * N) := by
      rw [block_len' cont hl hi, Nat.mul_assoc]
    obtain ⟨x, h1, h2, h3, h4, h5, h6, ⟨cts, hc1, hc2, hc3⟩, -⟩ :=
      C57_glwe_list m (block (levels * (outDim + 1) * N) cont i) N outDim levels hN hboN hbll
    have hx : x = ⟨block (levels * (outDim + 1) * N) cont i, outDim + 1, N⟩ := by
      cases x; simp only at h2 h3 h4; subst h2 h3 h4; rfl
    obtain ⟨p, hp1, hp2, hp3⟩ := hc2.part l hll
    rw [List.getElem?_map, Option.map_eq_some_iff] at hp1
    obtain ⟨ct, hct, rfl⟩ := hp1
    have hidx : (i * levels + l) * ((outDim + 1) * N) + k < cont.length := by
      rw [hl, show n * (levels * (outDim + 1) * N) = n * levels * ((outDim + 1) * N) by ring]
      exact idx_lt (idx_lt hi hll) hk
    have hN' := hc3 ct (List.mem_of_getElem? hct)
    rw [hx] at h6 hc1
    refine ⟨_, cts, ct, cont[_]'hidx, range_map_get _ hi, rfl, rfl, h6, hc1, hct, hN', ?_, ?_,
      List.getElem?_eq_getElem hidx⟩
    · rw [GlweCiphertext.size, hN']
      exact divU_ok hN hp2
    · have hlt : l * ((outDim + 1) * N) + k < levels * (outDim + 1) * N := by
        rw [Nat.mul_assoc]; exact idx_lt hll hk
      rw [hp3 k hk, block_getElem? _ _ _ _ hlt, ← List.getElem?_eq_getElem hidx]
      congr 1; ring

/-- C57: allocated packing keyswitch keys. The private functional key for input dimension `n` is the key of
`n + 1` blocks. -/
theorem C57_packing_key_allocate (m : Build) (v : α) (base levels outDim N n : Nat) (hlv : 0 < levels)
    (hN : 0 < N) (hb : levels * (outDim + 1) * N < 2 ^ 64)
    (hn : (n + 1) * (levels * (outDim + 1) * N) < 2 ^ 64) :
    PackingKey.allocate m v levels base n outDim N =
        PackingKey.fromContainer m (List.replicate (n * (levels * (outDim + 1) * N)) v) base levels outDim N ∧
      PackingKey.allocatePrivate m v levels base n outDim N =
        PackingKey.fromContainer m (List.replicate ((n + 1) * (levels * (outDim + 1) * N)) v) base levels
          outDim N := by
  have ho : 0 < outDim + 1 := Nat.succ_pos _
  have hn64 : ∀ z, z ≤ n + 1 → z * (levels * (outDim + 1) * N) < 2 ^ 64 := fun z hz =>
    lt_of_le_of_lt (Nat.mul_le_mul_right _ hz) hn
  have hoN : 0 < (outDim + 1) * N := Nat.mul_pos ho hN
  have hb' : levels * ((outDim + 1) * N) < 2 ^ 64 := by rw [← Nat.mul_assoc]; exact hb
  have hp : ∀ z, z ≤ n + 1 → prodU m [levels, outDim + 1, N, z] = some (z * (levels * (outDim + 1) * N)) := by
    intro z hz
    have h3 : [levels, outDim + 1, N].prod = levels * (outDim + 1) * N := by
      simp only [List.prod_cons, List.prod_nil]; ring
    have := foldlM_append_last m [levels, outDim + 1, N] z (by simp [hlv, hN]) (by rw [h3]; exact hb)
      (by rw [h3, Nat.mul_comm]; exact hn64 z hz)
    rw [h3, Nat.mul_comm] at this
    simpa using this
  have hck : ∀ z, ckDimDiv m (List.replicate (z * (levels * (outDim + 1) * N)) v).length
      [[outDim + 1, N], [levels]] = some () := fun z =>
    ck2 m (fits2 (z * levels) ho hN (lt_of_mul_lt_r hlv hb') (by rw [List.length_replicate]; ring))
      (fits1 (z * ((outDim + 1) * N)) hlv (lt_of_mul_lt_l hoN hb') (by rw [List.length_replicate]; ring))
  constructor
  · simp only [PackingKey.allocate, PackingKey.fromContainer, hp n (Nat.le_succ _), hck, Option.bind_eq_bind,
      Option.bind_some]
  · simp only [PackingKey.allocatePrivate, PackingKey.fromContainer, hp (n + 1) le_rfl, hck,
      Option.bind_eq_bind, Option.bind_some]

/-- C57, lists of private functional packing keyswitch keys (circuit bootstrapping). -/
theorem C57_packing_key_list (m : Build) (v : α) (base levels inDim outDim N n : Nat) (hlv : 0 < levels)
    (hN : 0 < N) (hn0 : 0 < n)
    (hn : n * ((outDim + 1) * N * levels * (inDim + 1)) < 2 ^ 64) :
    ∃ x : PackingKeyList α, PackingKeyList.allocate m v levels base inDim outDim N n = some x ∧
      (∀ e ∈ x.tensor, e = v) ∧ x.count m = some n ∧ x.inputSize = inDim + 1 ∧
      x.glweSize = outDim + 1 ∧ x.polySize = N ∧ x.levelCount = levels ∧ x.baseLog = base ∧
      ∃ keys, x.keyIter m = some keys ∧
        Splits x.tensor n ((outDim + 1) * N * levels * (inDim + 1)) (keys.map PackingKey.tensor) ∧
        ∀ k ∈ keys, k.inputDimensionPrivate m = some inDim ∧ k.outputDimension m = some outDim ∧
          k.polySize = N ∧ k.levelCount = levels ∧ k.baseLog = base := by
  have ho : 0 < outDim + 1 := Nat.succ_pos _
  have hi : 0 < inDim + 1 := Nat.succ_pos _
  have hb := lt_of_mul_lt_r hn0 hn
  have hp0 : prodU m [levels, outDim + 1, N, inDim + 1, n] =
      some (n * ((outDim + 1) * N * levels * (inDim + 1))) :=
    prodU_eq m _ (by simp [hN, hlv, hn0]) (by simp only [List.prod_cons, List.prod_nil]; ring) hn
  have hp := prod4 m ho hN hlv hi hb
  have hpos : 0 < (outDim + 1) * N * levels * (inDim + 1) :=
    Nat.mul_pos (Nat.mul_pos (Nat.mul_pos ho hN) hlv) hi
  obtain ⟨cont, hcont⟩ : ∃ c : List α, c = List.replicate (n * ((outDim + 1) * N * levels * (inDim + 1))) v :=
    ⟨_, rfl⟩
  have hl : cont.length = n * ((outDim + 1) * N * levels * (inDim + 1)) := by rw [hcont]; simp
  have hck : ckDimDiv m cont.length [[(outDim + 1) * N * levels * (inDim + 1)]] = some () :=
    ck1 m (fits1 n hpos hb hl)
  have hb3 : levels * (outDim + 1) * N < 2 ^ 64 := by
    rw [show levels * (outDim + 1) * N = (outDim + 1) * N * levels by ring]; exact lt_of_mul_lt_l hi hb
  have hbi : inDim + 1 < 2 ^ 64 := lt_of_mul_lt_r (Nat.mul_pos (Nat.mul_pos ho hN) hlv) hb
  have hbo : outDim + 1 < 2 ^ 64 := lt_of_mul_lt_l hN (lt_of_mul_lt_l hlv (lt_of_mul_lt_l hi hb))
  have hk : ∀ i, i < n → PackingKey.fromContainer m (block ((outDim + 1) * N * levels * (inDim + 1)) cont i)
        base levels outDim N =
      some ⟨block ((outDim + 1) * N * levels * (inDim + 1)) cont i, base, levels, outDim + 1, N⟩ ∧
      PackingKey.inputDimensionPrivate m
        (⟨block ((outDim + 1) * N * levels * (inDim + 1)) cont i, base, levels, outDim + 1, N⟩ : PackingKey α) =
        some inDim := by
    intro i hi'
    obtain ⟨x, h1, -, -, -, -, -, -, h8, -⟩ := C57_packing_key m
      (block ((outDim + 1) * N * levels * (inDim + 1)) cont i) base levels outDim N (inDim + 1) hlv hN hb3 hbi
      (by rw [block_len' cont hl hi']; ring)
    have h9 := h1
    simp only [PackingKey.fromContainer, Option.bind_eq_bind] at h9
    obtain ⟨_, _, h⟩ := Option.bind_eq_some_iff.1 h9
    rw [← Option.some.inj h] at h1 h8
    exact ⟨h1, h8 hi⟩
  refine ⟨⟨cont, base, levels, inDim + 1, outDim + 1, N⟩, ?_, ?_, ?_, rfl, rfl, rfl, rfl, rfl,
    (List.range n).map fun i => ⟨block ((outDim + 1) * N * levels * (inDim + 1)) cont i, base, levels, outDim + 1, N⟩,
    ?_, ?_, ?_⟩
  · simp only [PackingKeyList.allocate, hp0, hcont, Option.bind_eq_bind, Option.bind_some]
  · intro e he
    rw [hcont] at he
    exact (List.mem_replicate.1 he).2
  · simp only [PackingKeyList.count, hp, hck, divU_ok hpos hl, Option.bind_eq_bind, Option.bind_some]
  · simp only [PackingKeyList.keyIter, hp, hck, subtensors_ok m hpos cont hl, Option.bind_eq_bind,
      Option.bind_some]
    rw [mapM_some _ (fun p => (⟨p, base, levels, outDim + 1, N⟩ : PackingKey α)), List.map_map]; · rfl
    intro p hp
    obtain ⟨i, hi', rfl⟩ := List.mem_map.1 hp
    rw [subU_ok m ho hbo]
    exact (hk i (List.mem_range.1 hi')).1
  · rw [List.map_map]; exact splits_blocks cont hl
  · intro k hkm
    obtain ⟨i, hi', rfl⟩ := List.mem_map.1 hkm
    exact ⟨(hk i (List.mem_range.1 hi')).2, subU_ok m ho hbo, rfl, rfl, rfl⟩

example : ∃ x, PackingKey.fromContainer .debug (List.range 24) 4 2 1 2 = some x ∧
    x.inputDimension .debug = some 3 ∧ x.inputDimensionPrivate .debug = some 2 :=
  ⟨_, rfl, by decide, by decide⟩

/-- C57: `sublist_iter` checks its two divisors separately, so a length that is a multiple of both but not of
their product is refused by the size check of the iterator in a debug build, and gives a shorter last
sub-list in a release build. -/
theorem C57_sublists_short :
    LweList.sublistIter .debug ⟨[1, 2, 3, 4, 5, 6], 2⟩ 2 = none ∧
    LweList.sublistIter .release ⟨[1, 2, 3, 4, 5, 6], 2⟩ 2 = some [⟨[1, 2, 3, 4], 2⟩, ⟨[5, 6], 2⟩] := by
  decide

end Verif.Entity
