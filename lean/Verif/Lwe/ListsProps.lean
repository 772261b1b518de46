import Verif.Lwe.Lists
import Verif.Lwe.Props2
import Verif.Session.DecryptLemmas
/-
C115: keyswitch of a list of ciphertexts.

Vocabulary: `phase` and `Fits` (Verif.Lwe.Spec), `keyswitchCiphertext` (the keyswitch of one ciphertext, whose
effect is C16), `Session.decryptWords` (decryption of a list of ciphertexts in either build).
-/
namespace Verif.Lwe
open Verif.Random Verif.Decomp
open Verif.Csprng (Build)

variable {w : Nat}

theorem checks_ok (bld : Build) (l : Nat) (hl : 0 < l) (s s' ksk after before : List (BitVec w))
    (hk : ksk.length = s.length * (l * (s'.length + 1))) (ha : Fits s' after) (hb : Fits s before) :
    keyswitchChecks bld l (s'.length + 1) ksk after before = true := by
  cases bld with
  | release => rfl
  | debug =>
    rw [Fits] at ha hb
    have hp : 0 < (s'.length + 1) * l := Nat.mul_pos (by omega) hl
    simp only [keyswitchChecks, decide_eq_true_eq]
    refine ⟨by omega, ?_, by omega⟩
    rw [hk, Nat.mul_comm l, Nat.mul_div_cancel _ hp, hb]
    omega

/-- A single keyswitch with a key of the right size never panics. -/
theorem keyswitch_some (b l : Nat) (hl : 0 < l) (s s' ksk after before : List (BitVec w))
    (hk : ksk.length = s.length * (l * (s'.length + 1))) (ha : Fits s' after) (hb : Fits s before) :
    ∃ r, keyswitchCiphertext b l (s'.length + 1) ksk after before = some r ∧ Fits s' r := by
  obtain ⟨mask, body, rfl, hm⟩ := exists_split hb
  obtain ⟨r, hr, hf, _⟩ := keyswitch_phase b l hl s.length s' ksk after mask body hk ha hm
  exact ⟨r, hr, hf⟩

theorem loop_spec (bld : Build) (b l : Nat) (hl : 0 < l) (s s' ksk : List (BitVec w))
    (hk : ksk.length = s.length * (l * (s'.length + 1))) :
    ∀ (cs os : List (List (BitVec w))), (∀ c ∈ cs, Fits s c) → (∀ o ∈ os, Fits s' o) →
    ∃ rs, keyswitchLoop bld b l (s'.length + 1) ksk cs os = some rs ∧ rs.length = os.length ∧ (∀ r ∈ rs, Fits s' r) ∧
      (∀ (i : Nat) (c o : List (BitVec w)), cs[i]? = some c → os[i]? = some o → rs[i]? = keyswitchCiphertext b l (s'.length + 1) ksk o c) ∧
      ∀ i : Nat, cs.length ≤ i → rs[i]? = os[i]?
  | [], os, _, ho => ⟨os, by cases os <;> rfl, rfl, ho, by simp, fun _ _ => rfl⟩
  | c :: cs, [], _, _ => ⟨[], rfl, rfl, by simp, by simp, fun _ _ => rfl⟩
  | c :: cs, o :: os, hc, ho => by
    obtain ⟨rs, h1, h2, h3, h4, h5⟩ := loop_spec bld b l hl s s' ksk hk cs os
      (fun x hx => hc x (List.mem_cons_of_mem _ hx)) (fun x hx => ho x (List.mem_cons_of_mem _ hx))
    have hc0 := hc c (List.mem_cons_self ..)
    have ho0 := ho o (List.mem_cons_self ..)
    obtain ⟨r, r1, r2⟩ := keyswitch_some b l hl s s' ksk o c hk ho0 hc0
    refine ⟨r :: rs, ?_, by simp [h2], ?_, ?_, ?_⟩
    · rw [keyswitchLoop, if_pos (checks_ok bld l hl s s' ksk o c hk ho0 hc0), r1, h1]; rfl
    · intro x hx
      rcases List.mem_cons.1 hx with rfl | hx
      · exact r2
      · exact h3 x hx
    · intro i c' o' hi1 hi2
      cases i with
      | zero =>
        simp only [List.getElem?_cons_zero, Option.some.injEq] at hi1 hi2
        subst hi1 hi2
        rw [r1]; rfl
      | succ i => simpa using h4 i c' o' (by simpa using hi1) (by simpa using hi2)
    · intro i hi
      cases i with
      | zero => simp at hi
      | succ i => simpa using h5 i (by simpa using hi)

theorem fits_chunks (s : List (BitVec w)) (m : Nat) (l : List (BitVec w)) (h : l.length = m * (s.length + 1)) :
    ∀ c ∈ chunks (s.length + 1) l, Fits s c := by
  rw [chunks_eq _ (by omega) m l h]
  intro p hp
  obtain ⟨i, hi, rfl⟩ := List.mem_map.1 hp
  exact block_length _ l i (by rw [h]; exact Nat.mul_le_mul_right _ (List.mem_range.1 hi))

theorem chunks_get (n : Nat) (hn : 0 < n) (m : Nat) (l : List (BitVec w)) (h : l.length = m * n) (i : Nat) (hi : i < m) :
    (chunks n l)[i]? = some (block n l i) := by
  rw [chunks_eq n hn m l h, List.getElem?_map, List.getElem?_range hi]; rfl

/-- C115: in release builds the call never panics with a key and ciphertexts of matching dimensions, for all counts: the
first `min m m'` outputs are the keyswitches of the inputs of the same index, the others are left as they were. -/
theorem C115_release (b l : Nat) (hl : 0 < l) (s s' ksk out inp : List (BitVec w)) (m m' : Nat)
    (hk : ksk.length = s.length * (l * (s'.length + 1))) (hi : inp.length = m * (s.length + 1))
    (ho : out.length = m' * (s'.length + 1)) :
    ∃ r, keyswitchList .release b l (s'.length + 1) ksk (s'.length + 1) (s.length + 1) out inp = some r ∧
      r.length = m' * (s'.length + 1) ∧
      (∀ i, i < m → i < m' → keyswitchCiphertext b l (s'.length + 1) ksk (block (s'.length + 1) out i)
        (block (s.length + 1) inp i) = some (block (s'.length + 1) r i)) ∧
      ∀ i, m ≤ i → i < m' → block (s'.length + 1) r i = block (s'.length + 1) out i := by
  obtain ⟨rs, h1, h2, h3, h4, h5⟩ := loop_spec .release b l hl s s' ksk hk _ _ (fits_chunks s m inp hi) (fits_chunks s' m' out ho)
  have hlen := chunks_length _ (by omega) m' out ho
  have hlen' := chunks_length _ (by omega) m inp hi
  have hget : ∀ i, i < m' → rs[i]? = some (block (s'.length + 1) rs.flatten i) := by
    intro i hi'
    have e : rs[i]? = some rs[i] := List.getElem?_eq_getElem (by omega)
    rw [e, block_flatten _ (by omega) rs h3 i _ e]
  refine ⟨rs.flatten, ?_, ?_, ?_, ?_⟩
  · rw [keyswitchList, if_neg (by rintro ⟨h, _⟩; cases h), h1]; rfl
  · rw [flatten_length_uniform _ _ h3, h2, hlen]
  · intro i hm hm'
    rw [← h4 i _ _ (chunks_get _ (by omega) m inp hi i hm) (chunks_get _ (by omega) m' out ho i hm'), hget i hm']
  · intro i hm hm'
    have := h5 i (by omega)
    rw [hget i hm', chunks_get _ (by omega) m' out ho i hm'] at this
    exact Option.some.inj this

/-- C115: debug builds panic when the counts differ, and otherwise do what release builds do. -/
theorem C115_debug (b l : Nat) (hl : 0 < l) (s s' ksk out inp : List (BitVec w)) (m m' : Nat)
    (hk : ksk.length = s.length * (l * (s'.length + 1))) (hi : inp.length = m * (s.length + 1))
    (ho : out.length = m' * (s'.length + 1)) :
    keyswitchList .debug b l (s'.length + 1) ksk (s'.length + 1) (s.length + 1) out inp =
      if m = m' then keyswitchList .release b l (s'.length + 1) ksk (s'.length + 1) (s.length + 1) out inp else none := by
  have e1 : inp.length / (s.length + 1) = m := by rw [hi, Nat.mul_div_cancel _ (by omega)]
  have e2 : out.length / (s'.length + 1) = m' := by rw [ho, Nat.mul_div_cancel _ (by omega)]
  by_cases hm : m = m'
  · rw [if_pos hm, keyswitchList, keyswitchList, e1, e2, if_neg (by rintro ⟨_, h⟩; exact h hm),
      if_neg (by rintro ⟨h, _⟩; cases h)]
    have hloop : ∀ (cs os : List (List (BitVec w))), (∀ c ∈ cs, Fits s c) → (∀ o ∈ os, Fits s' o) →
        keyswitchLoop .debug b l (s'.length + 1) ksk cs os = keyswitchLoop .release b l (s'.length + 1) ksk cs os := by
      intro cs
      induction cs with
      | nil => intro os _ _; cases os <;> rfl
      | cons c cs ih =>
        intro os hc ho
        cases os with
        | nil => rfl
        | cons o os =>
          rw [keyswitchLoop, keyswitchLoop,
            if_pos (checks_ok .debug l hl s s' ksk o c hk (ho o (List.mem_cons_self ..)) (hc c (List.mem_cons_self ..))),
            if_pos (checks_ok .release l hl s s' ksk o c hk (ho o (List.mem_cons_self ..)) (hc c (List.mem_cons_self ..))),
            ih os (fun x hx => hc x (List.mem_cons_of_mem _ hx)) (fun x hx => ho x (List.mem_cons_of_mem _ hx))]
    rw [hloop _ _ (fits_chunks s m inp hi) (fits_chunks s' m' out ho)]
  · rw [if_neg hm, keyswitchList, e1, e2, if_pos ⟨rfl, hm⟩]

/-- C115: debug builds panic on a list of ciphertexts whose dimension is not the one of the key. -/
theorem C115_debug_dimension (b l : Nat) (hl : 0 < l) (s' ksk out inp : List (BitVec w)) (n n' m : Nat) (hm : 0 < m) (hn : n' ≠ n)
    (hk : ksk.length = n * (l * (s'.length + 1))) (hi : inp.length = m * (n' + 1))
    (ho : out.length = m * (s'.length + 1)) :
    keyswitchList .debug b l (s'.length + 1) ksk (s'.length + 1) (n' + 1) out inp = none := by
  rw [keyswitchList]
  split
  · rfl
  · have hc : chunks (n' + 1) inp ≠ [] := by
      intro h
      have := chunks_length (n' + 1) (by omega) m inp hi
      rw [h] at this
      simp at this; omega
    have ho' : chunks (s'.length + 1) out ≠ [] := by
      intro h
      have := chunks_length (s'.length + 1) (by omega) m out ho
      rw [h] at this
      simp at this; omega
    have hlen : ∀ c ∈ chunks (n' + 1) inp, c.length = n' + 1 := by
      rw [chunks_eq _ (by omega) m inp hi]
      intro p hp
      obtain ⟨i, hi', rfl⟩ := List.mem_map.1 hp
      exact block_length _ inp i (by rw [hi]; exact Nat.mul_le_mul_right _ (List.mem_range.1 hi'))
    generalize chunks (n' + 1) inp = cs at *
    generalize chunks (s'.length + 1) out = os at *
    cases cs with
    | nil => exact absurd rfl hc
    | cons c cs =>
      cases os with
      | nil => exact absurd rfl ho'
      | cons o os =>
        rw [keyswitchLoop, if_neg]
        · rfl
        · have hp : 0 < (s'.length + 1) * l := Nat.mul_pos (by omega) hl
          simp only [keyswitchChecks, decide_eq_true_eq]
          rintro ⟨_, h2, _⟩
          rw [hk, Nat.mul_comm l, Nat.mul_div_cancel _ hp, hlen c (List.mem_cons_self ..)] at h2
          omega

/-- C115, end to end, in both builds: a list of messages encrypted under the binary key `s`, switched to the key `s'` and
decrypted under it gives each message plus the noise drawn for it plus an error of the keyswitch within the bound of
C16. The encryption draws one noise per message. -/
theorem C115_pipeline (bld : Build) (f : GaussianFn w) (b l : Nat) (hv : ValidParams w b l)
    (s s' ksk buf cts out dec msgs : List (BitVec w)) (g g' : EncGen)
    (e : Nat → Nat → Int) (B : Nat) (hk : ksk.length = s.length * (l * (s'.length + 1)))
    (hrow : ∀ i, i < s.length → ∀ k, k < l → phase s' (block (s'.length + 1) ksk (i * l + k)) =
      s.getD i 0 * ((2 ^ (w - b * (k + 1)) : Nat) : BitVec w) + ((e i k : Int) : BitVec w))
    (he : ∀ i, i < s.length → ∀ k, k < l → |e i k| ≤ B)
    (hs : BinaryKey s) (hs' : bld = .release ∨ BinaryKey s')
    (hbuf : buf.length = msgs.length * (s.length + 1)) (ho : out.length = msgs.length * (s'.length + 1))
    (hd : dec.length = msgs.length)
    (henc : encryptLweList f s (s.length + 1) buf msgs g = some (cts, g')) :
    ∃ r x es, keyswitchList bld b l (s'.length + 1) ksk (s'.length + 1) (s.length + 1) out cts = some r ∧
      Session.decryptWords bld s' (chunks (s'.length + 1) r) dec = some x ∧ x.length = msgs.length ∧
      rep msgs.length (randomNoise f) g.noise = some (es, g'.noise) ∧
      ∀ i, i < msgs.length → ∃ E : Int, x.getD i 0 = msgs.getD i 0 + es.getD i 0 + (E : BitVec w) ∧
        |E| ≤ s.length * 2 ^ (w - b * l - 1) + s.length * l * 2 ^ (b - 1) * B := by
  obtain ⟨es, h1, h2, h3⟩ := encryptLweList_block hbuf henc
  obtain ⟨r, r1, r2, r3, _⟩ := C115_release b l hv.level s s' ksk out cts msgs.length msgs.length hk h2 ho
  have hr : keyswitchList bld b l (s'.length + 1) ksk (s'.length + 1) (s.length + 1) out cts = some r := by
    cases bld with
    | release => exact r1
    | debug => rw [C115_debug b l hv.level s s' ksk out cts _ _ hk h2 ho, if_pos rfl, r1]
  have hcl := chunks_length (s'.length + 1) (by omega) msgs.length r r2
  refine ⟨r, (chunks (s'.length + 1) r).map (phase s'), es, hr, ?_, by simp [hcl], h1, ?_⟩
  · exact Session.decryptWords_eq hs' _ _ (by rw [hcl, hd]) (fits_chunks s' _ r r2)
  · intro i hi
    have hbi : Fits s (block (s.length + 1) cts i) :=
      block_length _ cts i (by rw [h2]; exact Nat.mul_le_mul_right _ hi)
    have hoi : Fits s' (block (s'.length + 1) out i) :=
      block_length _ out i (by rw [ho]; exact Nat.mul_le_mul_right _ hi)
    obtain ⟨r', E, k1, _, k3, k4⟩ := C16_error_bound b l hv s s' ksk _ _ e B hk hrow he hs hoi hbi
    rw [r3 i hi hi] at k1
    obtain rfl := Option.some.inj k1
    refine ⟨E, ?_, k4⟩
    rw [List.getD_eq_getElem?_getD, List.getElem?_map, chunks_get _ (by omega) msgs.length r r2 i hi, Option.map_some,
      Option.getD_some, k3, h3 i hi]

/-- Two ciphertexts under `[1, 1]` switched to `[1]` with a key generated by the model, in both builds; and a list of two
ciphertexts switched into a list of three. -/
example :
    let f : GaussianFn 16 := { accept := fun _ _ => true, value := fun _ _ => (1#16, 0#16) }
    let g : EncGen := { mask := ⟨fun p => BitVec.ofNat 8 (p * p + 7), 1, 1000⟩, noise := ⟨fun _ => 1#8, 1, 1000⟩ }
    let s := [1#16, 1#16]
    let s' := [1#16]
    let inp := [0x1234#16, 0x0f81#16, 0x71b5#16, 0x2000#16, 0x4000#16, 0x9000#16]
    let ks := fun bld out => (fillKeyswitchKey f s s' 4 2 2 (List.replicate 8 0#16) g).bind fun k =>
      keyswitchList bld 4 2 2 k.1 2 3 out inp
    ((ks .debug [0, 0, 0, 0]).bind fun r => Session.decryptWords .debug s' (chunks 2 r) [0, 0]) =
      some [0x4fb1#16, 0x2ffa#16] ∧
    ks .debug [0, 0, 0, 0, 5, 6] = none ∧
    ((ks .release [0, 0, 0, 0, 5, 6]).map fun r => r.drop 4) = some [5, 6] := by
  decide +kernel

end Verif.Lwe
