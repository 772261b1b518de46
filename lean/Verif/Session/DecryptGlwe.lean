import Verif.Session.DecryptLemmas
/-
Lemmas for C95, GLWE part and trivial encryptions.
-/
namespace Verif.Session
open Verif.Random Verif.Engine Verif.Glwe
open Verif.Csprng (Build)
variable {w : Nat}

/-! ### Lists -/

theorem getD_ext {α : Type} (d : α) (x y : List α) (hl : x.length = y.length)
    (h : ∀ i, i < y.length → x.getD i d = y.getD i d) : x = y := by
  apply List.ext_getElem hl
  intro i h1 h2
  have := h i h2
  simp only [List.getD_eq_getElem?_getD, List.getElem?_eq_getElem h1, List.getElem?_eq_getElem h2,
    Option.getD_some] at this
  exact this

theorem zipWith_getD {x y : List (BitVec w)} (i : Nat) (h1 : i < x.length) (h2 : i < y.length) :
    (List.zipWith (fun a b => a + b) x y).getD i 0 = x.getD i 0 + y.getD i 0 := by
  simp only [List.getD_eq_getElem?_getD, List.getElem?_eq_getElem h1, List.getElem?_eq_getElem h2]
  rw [List.getElem?_eq_getElem (by simp [List.length_zipWith]; omega)]
  simp

theorem chunks_single {α : Type} (n : Nat) (hn : 0 < n) (l : List α) (h : l.length = n) : chunks n l = [l] := by
  rw [chunks_eq n hn 1 l (by omega)]
  simp only [List.range_one, List.map_cons, List.map_nil, block, Nat.zero_mul, List.drop_zero]
  rw [List.take_of_length_le (by omega)]

theorem chunks_replicate {α : Type} (n m : Nat) (hn : 0 < n) (x : α) :
    chunks n (List.replicate (m * n) x) = List.replicate m (List.replicate n x) := by
  rw [chunks_eq n hn m _ (by simp)]
  apply List.ext_getElem (by simp)
  intro i h1 h2
  have hi : i < m := by simpa using h1
  simp only [List.getElem_map, List.getElem_range, List.getElem_replicate, block, List.drop_replicate,
    List.take_replicate]
  congr 1
  have : (i + 1) * n ≤ m * n := Nat.mul_le_mul_right _ hi
  rw [Nat.add_mul, Nat.one_mul] at this
  omega

/-! ### GLWE encryption calls -/

/-- What a GLWE encryption call leaves in its output: it decrypts, into any buffer, to the messages plus noise. -/
def GlweOk (f : GaussianFn w) (N k : Nat) (key msgs d : List (BitVec w)) : Prop :=
  ∃ (n : Nat) (noise : List (List (BitVec w))), msgs.length = n * N ∧ d.length = n * ((k + 1) * N) ∧
    noise.length = n ∧ (∀ p ∈ noise, DrawnPoly f N p) ∧
    ∀ buf : List (BitVec w), buf.length = n * N →
      decryptGlweList N k key buf d = List.zipWith (fun a b => a + b) msgs noise.flatten

theorem glweOk_list {f : GaussianFn w} {N k n : Nat} {key out msgs d : List (BitVec w)} {g g' : EncGen} (hN : 0 < N)
    (hk : KeyFits N k key) (ho : out.length = n * ((k + 1) * N)) (hm : msgs.length = n * N)
    (h : encryptGlweList f key N k out msgs g = some (d, g')) : GlweOk f N k key msgs d := by
  obtain ⟨h1, _, es, h3, _⟩ := C24_list f N k n hN key out msgs d (List.replicate (n * N) 0) g g' hk ho hm (by simp) h
  have hel : es.length = n := Lwe.rep_length _ _ _ _ _ h3
  have hd : ∀ p ∈ es, DrawnPoly f N p := by
    intro p hp
    obtain ⟨s, s', hs⟩ := rep_drawn _ _ _ _ _ h3 p hp
    exact ⟨noiseTensor_length hs, s, s', hs⟩
  refine ⟨n, es, hm, h1, hel, hd, ?_⟩
  intro buf hb
  obtain ⟨_, k2, es', k3, k4⟩ := C24_list f N k n hN key out msgs d buf g g' hk ho hm hb h
  have : es' = es := by rw [k3] at h3; exact (Prod.mk.inj (Option.some.inj h3)).1
  subst this
  have hfl : es'.flatten.length = n * N := by
    rw [flatten_length_uniform N es' (fun x hx => (hd x hx).1), hel]
  apply getD_ext 0
  · rw [k2, List.length_zipWith, hm, hfl, Nat.min_self]
  · intro t ht
    rw [List.length_zipWith, hm, hfl, Nat.min_self] at ht
    have hi : t / N < n := by rw [Nat.div_lt_iff_lt_mul hN]; exact ht
    have hj : t % N < N := Nat.mod_lt _ hN
    have e : t / N * N + t % N = t := Nat.div_add_mod' t N
    have := k4 (t / N) (t % N) hi hj
    rw [e] at this
    rw [this, zipWith_getD t (by omega) (by omega)]
    congr 1
    have hx : es'[t / N]? = some (es'.getD (t / N) []) := by
      rw [List.getD_eq_getElem?_getD, List.getElem?_eq_getElem (by omega)]; rfl
    rw [← block_flatten N hN es' (fun x hx => (hd x hx).1) (t / N) _ hx, block_getD N _ _ _ 0 hj, e]

theorem encryptGlwe_list {f : GaussianFn w} {N k : Nat} {key out msg d : List (BitVec w)} {g g' : EncGen} (hN : 0 < N)
    (ho : CtFits N k out) (hm : msg.length = N) (h : Glwe.encryptGlwe f key N out msg g = some (d, g')) :
    encryptGlweList f key N k out msg g = some (d, g') := by
  rw [encryptGlweList, chunks_single _ (Nat.mul_pos (by omega) hN) out ho, chunks_single N hN msg hm]
  simp only [encryptGlweListAux, h, List.flatten_cons, List.flatten_nil, List.append_nil]

theorem encryptZero_list {f : GaussianFn w} {N k : Nat} {key : List (BitVec w)} (hN : 0 < N) (hk : KeyFits N k key) :
    ∀ (cs : List (List (BitVec w))) (g : EncGen), (∀ c ∈ cs, CtFits N k c) →
    encryptZeroGlweListAux f key N cs g =
      encryptGlweListAux f key N cs (List.replicate cs.length (List.replicate N 0)) g
  | [], g, _ => rfl
  | c :: cs, g, h => by
    simp only [encryptZeroGlweListAux, List.length_cons, List.replicate_succ, encryptGlweListAux,
      C24_encrypt_zero f N k hN key c g hk (h c (by simp))]
    have ih := fun g => encryptZero_list (f := f) hN hk cs g fun x hx => h x (by simp [hx])
    cases Glwe.encryptGlwe f key N c (List.replicate N 0) g with
    | none => rfl
    | some r =>
      simp only [ih]
      cases encryptGlweListAux f key N cs (List.replicate cs.length (List.replicate N 0)) r.2 <;> rfl

theorem key_fits {key : GlweKey (BitVec w)} (h : key.polySize ∣ key.data.length) :
    KeyFits key.polySize key.dim key.data := by
  rw [KeyFits, GlweKey.dim, Nat.div_mul_cancel h]

theorem mod_check {a b : Nat} {e : EErr} (hb : 0 < b)
    (h : checks [withVal (modUsize a b) fun r => bad (r != 0) e] = .ok ()) : b ∣ a := by
  have := (checks_cons_ok h).1
  rw [modUsize, if_neg (by omega)] at this
  have := bad_ok (show bad (a % b != 0) e = .ok () from this)
  simp only [bne_eq_false_iff_eq] at this
  exact Nat.dvd_of_mod_eq_zero this

theorem glweOk_exec {bld : Build} {c : EncCall w} {f : GaussianFn w} {key : GlweKey (BitVec w)}
    {msgs d : List (BitVec w)} {g g' : EncGen}
    (hm : c.glweMessages = some (f, key, msgs)) (hw : c.WellFormed) (hc : c.check bld = .ok ())
    (he : c.exec bld g = some (d, g')) :
    GlweOk f key.polySize key.dim key.data msgs d ∧ 0 < key.polySize ∧ key.polySize ∣ key.data.length ∧
    c.shape = (key.dim * key.polySize, (key.dim + 1) * key.polySize) := by
  cases c <;> simp only [EncCall.glweMessages, Option.some.injEq, Prod.mk.injEq, reduceCtorEq] at hm
  case glwe f' key' m =>
    obtain ⟨rfl, rfl, rfl⟩ := hm
    obtain ⟨w1, w2⟩ := hw
    have h1 := bad_ok (checks_cons_ok hc).1
    simp only [bne_eq_false_iff_eq, keyDims] at h1
    refine ⟨?_, w1, w2, rfl⟩
    exact glweOk_list (n := 1) w1 (key_fits w2) (by simp [Nat.mul_comm]) (by omega)
      (encryptGlwe_list w1 (by simp [CtFits, Nat.mul_comm]) h1.symm he)
  case glweInto f' key' out m =>
    obtain ⟨rfl, rfl, rfl⟩ := hm
    obtain ⟨⟨w1, w2⟩, w3, w4⟩ := hw
    obtain ⟨a, b⟩ := checks_cons_ok hc
    obtain ⟨b, c⟩ := checks_cons_ok b
    have h1 := bad_ok a
    have h2 := bad_ok b
    have h3 := bad_ok (checks_cons_ok c).1
    simp only [bne_eq_false_iff_eq, keyDims] at h1 h2 h3
    simp only [EncCall.exec, ← h1] at he
    rw [← h1] at w3 h2
    have h4 : out.tensor.length = (key'.dim + 1) * key'.polySize := by
      obtain ⟨q, hq⟩ := w3
      rw [hq, Nat.mul_div_cancel_left _ w1] at h2
      have : 0 < q := by
        rcases Nat.eq_zero_or_pos q with h | h
        · subst h
          exact absurd (List.length_eq_zero_iff.1 hq) w4
        · exact h
      rw [hq, h2, Nat.sub_add_cancel this, Nat.mul_comm]
    refine ⟨?_, w1, w2, rfl⟩
    exact glweOk_list (n := 1) w1 (key_fits w2) (by rw [h4]; ring) (by omega)
      (encryptGlwe_list w1 h4 h3.symm he)
  case glweZero f' key' =>
    obtain ⟨rfl, rfl, rfl⟩ := hm
    obtain ⟨w1, w2⟩ := hw
    simp only [EncCall.exec] at he
    rw [C24_encrypt_zero f' key'.polySize key'.dim w1 _ _ g (key_fits w2) (by simp [CtFits, Nat.mul_comm])] at he
    refine ⟨?_, w1, w2, rfl⟩
    exact glweOk_list (n := 1) w1 (key_fits w2) (by simp [Nat.mul_comm]) (by simp)
      (encryptGlwe_list w1 (by simp [CtFits, Nat.mul_comm]) (by simp) he)
  case glweVec f' key' ms =>
    obtain ⟨rfl, rfl, rfl⟩ := hm
    obtain ⟨w1, w2⟩ := hw
    have h1 := mod_check w1 hc
    refine ⟨?_, w1, w2, rfl⟩
    exact glweOk_list (n := ms.length / key'.polySize) w1 (key_fits w2) (by rw [List.length_replicate]; ring)
      (Nat.div_mul_cancel h1).symm he
  case glweVecInto f' key' out ms =>
    obtain ⟨rfl, rfl, rfl⟩ := hm
    obtain ⟨⟨w1, w2⟩, w3, w4⟩ := hw
    obtain ⟨a, b⟩ := checks_cons_ok hc
    obtain ⟨b, c⟩ := checks_cons_ok b
    have h1 := bad_ok a
    have h2 := bad_ok b
    have h3 := bad_ok (checks_cons_ok c).1
    simp only [bne_eq_false_iff_eq, keyDims] at h1 h2 h3
    have hg : out.glweSize = key'.dim + 1 := by omega
    simp only [EncCall.exec, ← h2, ← h1] at he
    rw [← h2, hg] at w4 h3
    refine ⟨?_, w1, w2, rfl⟩
    exact glweOk_list (n := out.tensor.length / ((key'.dim + 1) * key'.polySize)) w1 (key_fits w2)
      (Nat.div_mul_cancel w4).symm (by rw [← h3, Nat.mul_comm]) he
  case glweVecZero f' key' n =>
    obtain ⟨rfl, rfl, rfl⟩ := hm
    obtain ⟨w1, w2⟩ := hw
    refine ⟨?_, w1, w2, rfl⟩
    simp only [EncCall.exec, encryptZeroGlweList] at he
    have hl : (List.replicate (key'.polySize * (key'.dim + 1) * n) (0 : BitVec w)).length =
        n * ((key'.dim + 1) * key'.polySize) := by rw [List.length_replicate]; ring
    have hpos : 0 < (key'.dim + 1) * key'.polySize := Nat.mul_pos (by omega) w1
    rw [encryptZero_list w1 (key_fits w2) _ _ (chunks_len _ hpos n _ hl), chunks_length _ hpos n _ hl,
      ← chunks_replicate key'.polySize n w1 (0 : BitVec w)] at he
    exact glweOk_list (n := n) w1 (key_fits w2) hl (by simp) he

/-! ### GLWE decryption -/

theorem decrypt_single {N k : Nat} (hN : 0 < N) (key buf ct : List (BitVec w)) (hb : buf.length = N)
    (hc : CtFits N k ct) : decryptGlweList N k key buf ct = Glwe.decryptGlwe N key buf ct := by
  rw [decryptGlweList, chunks_single N hN buf hb, chunks_single _ (Nat.mul_pos (by omega) hN) ct hc]
  simp [decryptGlweListAux]

theorem decryptGlweVec_eq {key : GlweKey (BitVec w)} {n : Nat} {d r : List (BitVec w)} (h0 : 0 < key.polySize)
    (hd : d.length = n * ((key.dim + 1) * key.polySize))
    (h : ∀ buf : List (BitVec w), buf.length = n * key.polySize →
      decryptGlweList key.polySize key.dim key.data buf d = r) :
    decryptGlweVec key ⟨d, key.dim + 1, key.polySize⟩ = .ok r ∧
    (∀ out : List (BitVec w), out.length = n * key.polySize →
      decryptGlweVecInto key out ⟨d, key.dim + 1, key.polySize⟩ = .ok r) ∧
    (n = 1 → decryptGlwe key ⟨d, key.polySize⟩ = .ok r ∧
      ∀ out : List (BitVec w), out.length = key.polySize → decryptGlweInto key out ⟨d, key.polySize⟩ = .ok r) := by
  have hc : d.length / ((key.dim + 1) * key.polySize) = n := by
    rw [hd, Nat.mul_div_cancel _ (Nat.mul_pos (by omega) h0)]
  refine ⟨?_, ?_, ?_⟩
  · simp only [decryptGlweVec, Checks.glweCiphertextVectorDecryption, keyDims, vecDims, Nat.add_sub_cancel, checks, bad,
      bne_self_eq_false, hc]
    rw [h _ (by rw [List.length_replicate, Nat.mul_comm])]
    rfl
  · intro out ho
    simp only [decryptGlweVecInto, Checks.glweCiphertextVectorDiscardingDecryption, keyDims, vecDims,
      Nat.add_sub_cancel, checks, bad, bne_self_eq_false, hc, ho, Nat.mul_comm n]
    rw [h _ ho]
    rfl
  · rintro rfl
    have hf : CtFits key.polySize key.dim d := by rw [CtFits, hd, Nat.one_mul]
    have hq : d.length / key.polySize - 1 = key.dim := by
      rw [hd, Nat.one_mul, Nat.mul_div_cancel _ h0, Nat.add_sub_cancel]
    constructor
    · simp only [decryptGlwe, Checks.glweCiphertextDecryption, keyDims, ctDims, hq, checks, bad, bne_self_eq_false]
      rw [← decrypt_single h0 _ _ _ (by simp) hf, h _ (by simp)]
      rfl
    · intro out ho
      simp only [decryptGlweInto, Checks.glweCiphertextDiscardingDecryption, keyDims, ctDims, hq, checks, bad,
        bne_self_eq_false, ho]
      rw [← decrypt_single h0 _ _ _ ho hf, h _ (by rw [ho, Nat.one_mul])]
      rfl

end Verif.Session
