import Verif.Wop.Props3
/-
C46: circuit bootstrap, and the whole pipeline with the vertical packing.
-/
namespace Verif.Wop
open Verif Verif.Poly Verif.Glwe Verif.Pbs Verif.Decomp Verif.Pks
open Verif.Csprng (Build)

variable {w : Nat}

/-- The homomorphic shift moves the bit `m mod 2` of an input of phase `m 2^delta + e` to the bit
`w - b * level`, up to the error of the bootstrap. -/
theorem homomorphicShift_spec (pbs : List (BitVec w) → List (BitVec w) → List (BitVec w) → Option (List (BitVec w)))
    (N k level b delta : Nat) (lweKey key : List (BitVec w)) (Q P : Int) (hpbs : SignPbs pbs N k lweKey key Q P)
    (hw2 : 2 ≤ w) (hd : delta + 1 ≤ w) (hb : b * level + 1 ≤ w) (lweOut lweIn : List (BitVec w))
    (ho : lweOut.length = k * N + 1) (hin : Lwe.Fits lweKey lweIn) (m : Nat) (e : Int)
    (hp : Lwe.phase lweKey lweIn = ((m * 2 ^ delta + e : Int) : BitVec w))
    (hQ : |e| * 2 ^ (w - delta - 1) + Q < 2 ^ (w - 2)) :
    ∃ r, homomorphicShift pbs N k level b delta lweOut lweIn = some r ∧ Lwe.Fits key r ∧
      ∃ f : Int, |f| ≤ P ∧ Lwe.phase key r =
        (((if m % 2 = 1 then 2 ^ (w - b * level) else 0) + f : Int) : BitVec w) := by
  rw [homomorphicShift, if_neg (by omega)]
  have hsm : Lwe.fillWithScalarMul (List.replicate lweIn.length 0#w) lweIn (1#w <<< (w - delta - 1)) =
      lweIn.map fun x => x * (1#w <<< (w - delta - 1)) := by
    rw [Lwe.fillWithScalarMul, zipUpdate_eq_zipWith _ _ _ (by simp)]
    apply List.ext_getElem (by simp)
    intro i h1 h2
    simp
  have hf1 : Lwe.Fits lweKey (lweIn.map fun x => x * (1#w <<< (w - delta - 1))) := by
    rw [Lwe.Fits, List.length_map]; exact hin
  obtain ⟨a1, a2⟩ := addBody_spec (1#w <<< (w - 2)) hf1
  obtain ⟨r, r1, r2, f, f1, f2⟩ := hpbs lweOut _ (1#w <<< (w - 1 - b * level)) (decide (m % 2 = 1))
    (e * 2 ^ (w - delta - 1)) ho a1 (by
      have hpow : (2 : Int) ^ delta * 2 ^ (w - delta - 1) = 2 ^ (w - 1) := by
        rw [← pow_add]; congr 1; omega
      rw [a2, Lwe.phase_map, hp, one_shl, one_shl, ← Int.cast_mul, ← Int.cast_add]
      have : ((m : Int) * 2 ^ delta + e) * 2 ^ (w - delta - 1) + 2 ^ (w - 2) =
          m * 2 ^ (w - 1) + (2 ^ (w - 2) + e * 2 ^ (w - delta - 1)) := by rw [← hpow]; ring
      rw [this, Int.cast_add (_ * _), top_bit (by omega), ← Int.cast_add]
      congr 1
      simp only [decide_eq_true_eq]; ring) (by
      rw [abs_mul, abs_of_pos (by positivity : (0 : Int) < 2 ^ (w - delta - 1))]; exact hQ)
  obtain ⟨b1, b2⟩ := addBody_spec (1#w <<< (w - 1 - b * level)) r2
  refine ⟨addBody r (1#w <<< (w - 1 - b * level)), ?_, b1, f, f1, ?_⟩
  · simp only [hsm, r1]; rfl
  · rw [b2, f2, one_shl]
    have h5 : (2 : Int) ^ (w - b * level) = 2 * 2 ^ (w - 1 - b * level) := by
      rw [← pow_succ']; congr 1; omega
    rw [h5]
    generalize (2 : Int) ^ (w - 1 - b * level) = A
    rcases Nat.mod_two_eq_zero_or_one m with h | h
    · rw [h, if_neg (by decide), if_neg (by decide)]; push_cast; ring
    · rw [h, if_pos (by decide), if_pos (by decide)]; push_cast; ring

theorem cbsKeyswitches_spec (ks : List (BitVec w) → List (BitVec w) → List (BitVec w) → Option (List (BitVec w)))
    (lwe : List (BitVec w)) (R : Nat → List (BitVec w) → Prop) (F : List (BitVec w) → Prop) :
    ∀ (keys outs : List (List (BitVec w))) (i0 : Nat), keys.length ≤ outs.length → (∀ o ∈ outs, F o) →
    (∀ i key, keys[i]? = some key → ∀ o, F o → ∃ r, ks key o lwe = some r ∧ R (i0 + i) r) →
    ∃ rs, cbsKeyswitches ks lwe keys outs = some (rs, outs.drop keys.length) ∧ rs.length = keys.length ∧
      ∀ i r, rs[i]? = some r → R (i0 + i) r
  | [], outs, i0, _, _, _ => ⟨[], by simp [cbsKeyswitches], rfl, by simp⟩
  | _ :: _, [], _, h, _, _ => by simp at h
  | key :: keys, o :: outs, i0, hl, hF, hks => by
    obtain ⟨r, r1, r2⟩ := hks 0 key rfl o (hF o (by simp))
    obtain ⟨rs, q1, q2, q3⟩ := cbsKeyswitches_spec ks lwe R F keys outs (i0 + 1) (by simpa using hl)
      (fun o ho => hF o (by simp [ho])) (fun i key' hi o ho => by
        have := hks (i + 1) key' (by simpa using hi) o ho
        rwa [show i0 + 1 + i = i0 + (i + 1) by omega])
    refine ⟨r :: rs, ?_, by simp [q2], fun i x hx => ?_⟩
    · rw [cbsKeyswitches, r1]
      simp only [q1]
      simp
    · cases i with
      | zero => cases hx; exact r2
      | succ i =>
        have := q3 i x (by simpa using hx)
        rwa [show i0 + (i + 1) = i0 + 1 + i by omega]

theorem cbsLevels_spec (pbs : List (BitVec w) → List (BitVec w) → List (BitVec w) → Option (List (BitVec w)))
    (ks : List (BitVec w) → List (BitVec w) → List (BitVec w) → Option (List (BitVec w)))
    (N k b delta l : Nat) (keys : List (List (BitVec w))) (lweIn : List (BitVec w)) (R : Nat → Nat → List (BitVec w) → Prop)
    (F : List (BitVec w) → Prop)
    (hstep : ∀ level, level < l → ∀ buf, buf.length = k * N + 1 →
      ∃ buf', homomorphicShift pbs N k (level + 1) b delta buf lweIn = some buf' ∧ buf'.length = k * N + 1 ∧
        ∀ i key, keys[i]? = some key → ∀ o, F o → ∃ r, ks key o buf' = some r ∧ R level i r) :
    ∀ (n level : Nat) (buf : List (BitVec w)) (outs : List (List (BitVec w))), level + n = l →
    buf.length = k * N + 1 → outs.length = n * keys.length → (∀ o ∈ outs, F o) →
    ∃ rs, cbsLevels pbs ks N k b delta keys lweIn n (level + 1) buf outs = some rs ∧ rs.length = n * keys.length ∧
      ∀ j i, j < n → i < keys.length → ∃ r, rs[j * keys.length + i]? = some r ∧ R (level + j) i r
  | 0, _, _, outs, _, _, ho, _ => ⟨outs, rfl, ho, fun j i hj => by omega⟩
  | n + 1, level, buf, outs, hl, hb, ho, hF => by
    obtain ⟨buf', b1, b2, b3⟩ := hstep level (by omega) buf hb
    obtain ⟨rs, r1, r2, r3⟩ := cbsKeyswitches_spec ks buf' (R level) F keys outs 0 (by rw [ho, Nat.succ_mul]; omega) hF
      (fun i key hi o hF => by rw [Nat.zero_add]; exact b3 i key hi o hF)
    obtain ⟨tl, t1, t2, t3⟩ := cbsLevels_spec pbs ks N k b delta l keys lweIn R F hstep n (level + 1) buf'
      (outs.drop keys.length) (by omega) b2 (by rw [List.length_drop, ho, Nat.succ_mul, Nat.add_sub_cancel])
      (fun o h => hF o (List.mem_of_mem_drop h))
    refine ⟨rs ++ tl, ?_, by rw [List.length_append, r2, t2]; ring, fun j i hj hi => ?_⟩
    · rw [cbsLevels, b1]
      simp only [r1, t1]
    · cases j with
      | zero =>
        have hi' : i < rs.length := by omega
        refine ⟨rs[i], ?_, ?_⟩
        · rw [Nat.zero_mul, Nat.zero_add, List.getElem?_append_left hi', List.getElem?_eq_getElem hi']
        · have := r3 i rs[i] (List.getElem?_eq_getElem hi')
          rwa [Nat.zero_add] at this
      | succ j =>
        obtain ⟨r, q1, q2⟩ := t3 j i (by omega) hi
        refine ⟨r, ?_, by rwa [show level + (j + 1) = level + 1 + j by omega]⟩
        rw [List.getElem?_append_right (by rw [r2, Nat.succ_mul]; omega), r2,
          show (j + 1) * keys.length + i - keys.length = j * keys.length + i by rw [Nat.succ_mul]; omega]
        exact q1

theorem small_rowFactor {N k : Nat} (hN : 0 < N) {key : List (BitVec w)} (hk : KeyFits N k key) {A : Int} (hA : 1 ≤ A)
    (hS : KeyBound A key) (r : Nat) : Small N A (rowFactor N k key r) := by
  rw [rowFactor]
  split
  · rename_i h
    apply Small.neg
    apply small_toRq N _ (block_len N k r key hk h)
    intro x hx
    exact hS x (List.mem_of_mem_drop (List.mem_of_mem_take hx))
  · have := small_const (R := BitVec w) N hN 1
    rw [Int.cast_one, map_one] at this
    exact this.mono (by simpa using hA)

/-- The error of the rows of a circuit bootstrap: the error `P` of the bootstrap and the rounding of the
private keyswitch from a key of dimension `n`, both multiplied by the key (coefficients at most `A`), and the
errors of the keyswitch keys (at most `Bk`). -/
def cbsBound (w n bk lk : Nat) (P A Bk : Int) : Int :=
  P * A + ((n + 1) * 2 ^ (w - bk * lk - 1) * A + (n + 1) * (lk * (2 ^ (bk - 1) * Bk)))

/-- The circuit bootstrap, for every bootstrap that computes signs. -/
theorem circuitBootstrap_spec (bld : Build)
    (pbs : List (BitVec w) → List (BitVec w) → List (BitVec w) → Option (List (BitVec w)))
    (N k N' k' bc lc bk lk delta : Nat) (hN' : 0 < N') (hbc : 0 < bc) (hlc : 0 < lc) (hfit : bc * lc < w) (hw2 : 2 ≤ w)
    (hbk : ValidParams w bk lk) (lweKey s key ksks : List (BitVec w)) (hsl : s.length = k * N) (Q P A Bk : Int)
    (hpbs : SignPbs pbs N k lweKey s Q P)
    (hs : Lwe.BinaryKey s) (hk : KeyFits N' k' key) (hA : 1 ≤ A) (hS : KeyBound A key)
    (hksks : CbsKeys N' k' bk lk s key ksks Bk) (hd : delta + 1 ≤ w)
    (ggswOut lweIn : List (BitVec w)) (ho : ggswOut.length = lc * ((k' + 1) * ((k' + 1) * N')))
    (hin : Lwe.Fits lweKey lweIn) (m : Nat) (e : Int)
    (hp : Lwe.phase lweKey lweIn = ((m * 2 ^ delta + e : Int) : BitVec w))
    (hQ : |e| * 2 ^ (w - delta - 1) + Q < 2 ^ (w - 2)) :
    ∃ res, circuitBootstrap bld pbs (fun key o c => privateKeyswitchOne bk lk N' k' key o c) N k N' k' bc lc delta ggswOut
        (chunks ((s.length + 1) * (lk * ((k' + 1) * N'))) ksks) lweIn = some res ∧
      ∃ err : Nat → Nat → Rq (BitVec w) N', (∀ j r, j < lc → r ≤ k' → Small N' (cbsBound w s.length bk lk P A Bk) (err j r)) ∧
        GgswEnc N' k' bc lc key res (if m % 2 = 1 then 1 else 0) err := by
  have hkN : 0 < (k' + 1) * N' := Nat.mul_pos (by omega) hN'
  have hlk := hbk.level
  have hpos : 0 < (s.length + 1) * (lk * ((k' + 1) * N')) := Nat.mul_pos (by omega) (Nat.mul_pos hlk hkN)
  obtain ⟨hkl, hkeys⟩ := hksks
  have hcl := chunks_length _ hpos _ _ hkl
  have hce := chunks_eq _ hpos _ _ hkl
  have ho' : ggswOut.length = (lc * (k' + 1)) * ((k' + 1) * N') := by rw [ho]; ring
  have hol := chunks_length _ hkN _ _ ho'
  have hoe := chunks_eq _ hkN _ _ ho'
  have hstep : ∀ level, level < lc → ∀ buf, buf.length = k * N + 1 →
      ∃ buf', homomorphicShift pbs N k (level + 1) bc delta buf lweIn = some buf' ∧ buf'.length = k * N + 1 ∧
        ∀ i key', (chunks ((s.length + 1) * (lk * ((k' + 1) * N'))) ksks)[i]? = some key' → ∀ o, CtFits N' k' o →
          ∃ r, privateKeyswitchOne bk lk N' k' key' o buf' = some r ∧ (CtFits N' k' r ∧
            ∃ e' : Rq (BitVec w) N', Small N' (cbsBound w s.length bk lk P A Bk) e' ∧ glwePhase N' k' key r =
              (if m % 2 = 1 then 1 else 0) * 2 ^ (w - bc * (level + 1)) * rowFactor N' k' key i + e') := by
    intro level hlevel buf hbuf
    obtain ⟨buf', b1, b2, f, f1, f2⟩ := homomorphicShift_spec pbs N k (level + 1) bc delta lweKey s Q P hpbs hw2 hd (by
      have : bc * (level + 1) ≤ bc * lc := Nat.mul_le_mul_left _ hlevel
      omega) buf lweIn hbuf hin m e hp hQ
    refine ⟨buf', b1, by rw [← hsl]; exact b2, fun i key' hi o hof => ?_⟩
    have hik : i < k' + 1 := by rw [← hcl]; exact (List.getElem?_eq_some_iff.1 hi).1
    have hkey' : key' = block ((s.length + 1) * (lk * ((k' + 1) * N'))) ksks i := by
      rw [hce] at hi
      simpa [hik] using hi.symm
    obtain ⟨err, e1, e2⟩ := hkeys i (by omega)
    obtain ⟨Pl, -, hPl⟩ := exists_toRq hN' (rowFactor N' k' key i)
    have hrf := small_rowFactor hN' hk hA hS i
    have hone : const N' (1 : BitVec w) = 1 := map_one _
    obtain ⟨e', s1, s2⟩ := C33_error_bound hN' bk lk hbk s key key' Pl buf' 1 err A Bk (by
      rw [hkey']
      refine ⟨e2.1, fun i' hi' j hj => ?_⟩
      rw [e2.2 i' hi' j hj, hPl]
      beta_reduce
      rw [one_mul]) e1 (by rw [hPl, hone, one_mul]; exact hrf) hs b2
    obtain ⟨r, r1, r2, r3⟩ := s2 o hof
    refine ⟨r, r1, r2, (f : Rq (BitVec w) N') * rowFactor N' k' key i + e', ?_, ?_⟩
    · refine Small.add ((small_int_mul f hrf).mono ?_) s1
      exact mul_le_mul_of_nonneg_right f1 (by omega)
    · rw [r3, hPl, hone, one_mul, f2]
      have hcast : ∀ z : Int, const N' ((z : Int) : BitVec w) = (z : Rq (BitVec w) N') := fun z => map_intCast _ z
      rw [hcast]
      rcases Nat.mod_two_eq_zero_or_one m with h | h
      · rw [h, if_neg (by decide), if_neg (by decide)]; push_cast; ring
      · rw [h, if_pos (by decide), if_pos (by decide)]; push_cast; ring
  obtain ⟨rs, r1, r2, r3⟩ := cbsLevels_spec pbs (fun key o c => privateKeyswitchOne bk lk N' k' key o c) N k bc delta lc
    (chunks ((s.length + 1) * (lk * ((k' + 1) * N'))) ksks) lweIn _ (CtFits N' k') hstep lc 0
    (List.replicate (k * N + 1) 0#w) (chunks ((k' + 1) * N') ggswOut) (by omega) (by simp) (by rw [hol, hcl]) (by
      intro o h
      rw [hoe] at h
      obtain ⟨t, ht, rfl⟩ := List.mem_map.1 h
      exact block_len _ _ t ggswOut ho' (List.mem_range.1 ht))
  rw [hcl] at r2 r3
  have hru : ∀ x ∈ rs, x.length = (k' + 1) * N' := by
    intro x hx
    obtain ⟨t, ht, rfl⟩ := List.getElem_of_mem hx
    rw [r2] at ht
    obtain ⟨r, q1, q2, -⟩ := r3 (t / (k' + 1)) (t % (k' + 1)) (Nat.div_lt_of_lt_mul (by rw [mul_comm]; exact ht))
      (Nat.mod_lt _ (by omega))
    rw [show t / (k' + 1) * (k' + 1) + t % (k' + 1) = t by rw [mul_comm]; exact Nat.div_add_mod _ _] at q1
    rw [List.getElem?_eq_getElem (by rw [r2]; exact ht)] at q1
    cases q1
    exact q2
  have hex : ∀ j r, ∃ e' : Rq (BitVec w) N', j < lc → r ≤ k' → Small N' (cbsBound w s.length bk lk P A Bk) e' ∧
      glwePhase N' k' key (ggswRow N' k' rs.flatten j r) =
        (if m % 2 = 1 then 1 else 0) * 2 ^ (w - bc * (j + 1)) * rowFactor N' k' key r + e' := by
    intro j r
    by_cases hjr : j < lc ∧ r ≤ k'
    · obtain ⟨x, q1, q2, e', q3, q4⟩ := r3 j r hjr.1 (by omega)
      refine ⟨e', fun _ _ => ⟨q3, ?_⟩⟩
      rw [ggswRow, block_block _ _ _ _ _ (by omega), block_flatten _ hkN _ hru _ x q1, q4, Nat.zero_add]
    · exact ⟨0, fun h1 h2 => absurd ⟨h1, h2⟩ hjr⟩
  choose err herr using hex
  refine ⟨rs.flatten, ?_, err, fun j r hj hr => (herr j r hj hr).1, ?_, fun j hj r hr => (herr j r hj hr).2⟩
  · rw [circuitBootstrap, if_neg (by rintro ⟨_, h'⟩; rcases h' with h' | h' | h' <;> omega), r1]
    rfl
  · rw [flatten_length_uniform _ _ hru, r2]; ring

/-- C46: on an input of phase `m 2^delta + e` the circuit bootstrap outputs a GGSW encryption of the bit
`m mod 2`. `lweKey` is the key of the input, `s` (dimension `k N`) the key after the bootstrap, `key` the
GLWE key of the output. -/
theorem C46_circuit_bootstrap (bld : Build) (T : Transform w) (N k b l logN : Nat) (hNN : N = 2 ^ logN)
    (hlog : logN + 2 < w) (D B S E : Int) (hT : T.Accurate N (l * (k + 1)) D B) (hD : 2 ^ (b - 1) ≤ D)
    (h : ValidParams w b l) (hB : 0 ≤ B) (hS0 : 0 ≤ S) (hE : 0 ≤ E)
    (N' k' bc lc bk lk delta : Nat) (hN' : 0 < N') (hbc : 0 < bc) (hlc : 0 < lc) (hfit : bc * lc < w)
    (hbk : ValidParams w bk lk) (lweKey s key bsk ksks : List (BitVec w)) (hs' : Lwe.BinaryKey lweKey)
    (hsk : KeyFits N k s) (hSs : KeyBound S s) (hbsk : BskEnc N k b l lweKey s bsk E)
    (hs : Lwe.BinaryKey s) (hk : KeyFits N' k' key) (A Bk : Int) (hA : 1 ≤ A) (hS : KeyBound A key)
    (hksks : CbsKeys N' k' bk lk s key ksks Bk) (hd : delta + 1 ≤ w)
    (ggswOut lweIn : List (BitVec w)) (ho : ggswOut.length = lc * ((k' + 1) * ((k' + 1) * N')))
    (hin : Lwe.Fits lweKey lweIn) (m : Nat) (e : Int)
    (hp : Lwe.phase lweKey lweIn = ((m * 2 ^ delta + e : Int) : BitVec w))
    (hQ : |e| * 2 ^ (w - delta - 1) + (1 + weight lweKey) * 2 ^ (w - logN - 2) < 2 ^ (w - 2)) :
    ∃ res, circuitBootstrap bld
        (fun o c a => bootstrap (cmuxFft T N k b l) N logN o c a (bskGgsws T N k l bsk))
        (fun key o c => privateKeyswitchOne bk lk N' k' key o c) N k N' k' bc lc delta ggswOut
        (chunks ((s.length + 1) * (lk * ((k' + 1) * N'))) ksks) lweIn = some res ∧
      ∃ err : Nat → Nat → Rq (BitVec w) N', (∀ j r, j < lc → r ≤ k' →
          Small N' (cbsBound w s.length bk lk (lweKey.length * epBound w N k b l S E B 1) A Bk) (err j r)) ∧
        GgswEnc N' k' bc lc key res (if m % 2 = 1 then 1 else 0) err :=
  circuitBootstrap_spec bld _ N k N' k' bc lc bk lk delta hN' hbc hlc hfit (by omega) hbk lweKey s key ksks hsk _ _ A Bk
    (signPbs_of_bsk T N k b l logN hNN hlog D B S E hT hD h hB hS0 hE lweKey s bsk hsk hSs hs' hbsk) hs hk hA hS hksks hd
    ggswOut lweIn ho hin m e hp hQ

/-- C46: with a wrong number of private functional keys a debug build panics. -/
theorem C46_wrong_keys (pbs ks : List (BitVec w) → List (BitVec w) → List (BitVec w) → Option (List (BitVec w)))
    (N k N' k' b l delta : Nat) (out : List (BitVec w)) (keys : List (List (BitVec w))) (lweIn : List (BitVec w))
    (h : keys.length ≠ k' + 1) : circuitBootstrap .debug pbs ks N k N' k' b l delta out keys lweIn = none := by
  rw [circuitBootstrap, if_pos ⟨rfl, .inr (.inr h)⟩]

end Verif.Wop
