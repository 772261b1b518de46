import Verif.Wop.Props4
/-
C51: circuit bootstrap followed by vertical packing.
-/
namespace Verif.Wop
open Verif Verif.Poly Verif.Glwe Verif.Pbs Verif.Decomp Verif.Pks
open Verif.Csprng (Build)

variable {w : Nat} {G : Type}

theorem cbsAll_spec (cbs : List (BitVec w) → List (BitVec w) → Option (List (BitVec w))) (conv : List (BitVec w) → G)
    (F : List (BitVec w) → Prop) (R : Nat → List (BitVec w) → Prop) : ∀ (cs : List (List (BitVec w))) (buf : List (BitVec w))
    (i0 : Nat), F buf →
    (∀ i c, cs[i]? = some c → ∀ buf, F buf → ∃ r, cbs buf c = some r ∧ F r ∧ R (i0 + i) r) →
    ∃ rs : List (List (BitVec w)), cbsAll cbs conv cs buf = some (rs.map conv) ∧ rs.length = cs.length ∧
      ∀ i r, rs[i]? = some r → R (i0 + i) r
  | [], _, _, _, _ => ⟨[], rfl, rfl, by simp⟩
  | c :: cs, buf, i0, hF, h => by
    obtain ⟨r, r1, r2, r3⟩ := h 0 c rfl buf hF
    obtain ⟨rs, q1, q2, q3⟩ := cbsAll_spec cbs conv F R cs r (i0 + 1) r2 (fun i c' hi buf hb => by
      have := h (i + 1) c' (by simpa using hi) buf hb
      rwa [show i0 + 1 + i = i0 + (i + 1) by omega])
    refine ⟨r :: rs, by rw [cbsAll, r1]; simp only [q1]; rfl, by simp [q2], fun i x hx => ?_⟩
    cases i with
    | zero => cases hx; exact r3
    | succ i =>
      have := q3 i x (by simpa using hx)
      rwa [show i0 + (i + 1) = i0 + 1 + i by omega]

theorem packAll_spec (vp : List (List (BitVec w)) → List (BitVec w) → Option (List (BitVec w)))
    (F : List (BitVec w) → Prop) (R : Nat → List (BitVec w) → Prop) : ∀ (luts : List (List (List (BitVec w))))
    (os : List (List (BitVec w))) (i0 : Nat), luts.length = os.length → (∀ o ∈ os, F o) →
    (∀ i lut, luts[i]? = some lut → ∀ o, F o → ∃ r, vp lut o = some r ∧ R (i0 + i) r) →
    ∃ rs, packAll vp luts os = some rs ∧ rs.length = os.length ∧ ∀ i r, rs[i]? = some r → R (i0 + i) r
  | [], [], _, _, _, _ => ⟨[], rfl, rfl, by simp⟩
  | [], _ :: _, _, h, _, _ => by simp at h
  | _ :: _, [], _, h, _, _ => by simp at h
  | lut :: luts, o :: os, i0, hl, hF, h => by
    obtain ⟨r, r1, r2⟩ := h 0 lut rfl o (hF o (by simp))
    obtain ⟨rs, q1, q2, q3⟩ := packAll_spec vp F R luts os (i0 + 1) (by simpa using hl) (fun o ho => hF o (by simp [ho]))
      (fun i lut' hi o ho => by
        have := h (i + 1) lut' (by simpa using hi) o ho
        rwa [show i0 + 1 + i = i0 + (i + 1) by omega])
    refine ⟨r :: rs, by rw [packAll, r1]; simp only [q1]; rfl, by simp [q2], fun i x hx => ?_⟩
    cases i with
    | zero => cases hx; exact r2
    | succ i =>
      have := q3 i x (by simpa using hx)
      rwa [show i0 + (i + 1) = i0 + 1 + i by omega]

/-- The groups of `small` polynomials of a list of `count * small` polynomials. -/
theorem chunks_of_chunks {α : Type} (n small count : Nat) (hn : 0 < n) (hs : 0 < small) (l : List α)
    (hl : l.length = count * (small * n)) (t : Nat) (ht : t < count) :
    (chunks small (chunks n l))[t]? = some (chunks n (block (small * n) l t)) := by
  have hl' : l.length = (count * small) * n := by rw [hl]; ring
  have hcl := chunks_length n hn _ l hl'
  have hce := chunks_eq n hn _ l hl'
  rw [chunks_eq small hs count _ hcl, List.getElem?_map, List.getElem?_range ht]
  have hbl := block_length (small * n) l t (by rw [hl]; exact Nat.mul_le_mul_right _ ht)
  rw [Option.map_some, chunks_eq n hn small _ hbl]
  congr 1
  apply List.ext_getElem?
  intro i
  by_cases hi : i < small
  · rw [block_getElem? _ _ _ _ hi, hce, List.getElem?_map, List.getElem?_map, List.getElem?_range hi,
      List.getElem?_range (by
        calc t * small + i < t * small + small := by omega
          _ = (t + 1) * small := by ring
          _ ≤ count * small := Nat.mul_le_mul_right _ ht)]
    simp only [Option.map_some]
    rw [block_block _ _ _ _ _ hi]
  · rw [List.getElem?_eq_none, List.getElem?_eq_none]
    · simp; omega
    · rw [block_length small _ t (by rw [hcl]; exact Nat.mul_le_mul_right _ ht)]; omega

/-- C51: `circuit_bootstrap_boolean_vertical_packing` (64-bit words). The inputs are encryptions of the bits
`bits` at the top bit, the table holds `nout` tables of `2^r N'` values, with `r + mlog` bits and
`N' = 2^mlog`: output `t` is a ciphertext of the entry of table `t` whose index is spelled by the bits. -/
theorem C51_pipeline (bld : Build) (hw : w = 64) (T T' : Transform w) (N k b l logN : Nat) (hNN : N = 2 ^ logN)
    (hlog : logN + 2 < w) (D B S E : Int) (hT : T.Accurate N (l * (k + 1)) D B) (hD : 2 ^ (b - 1) ≤ D)
    (h : ValidParams w b l) (hB : 0 ≤ B) (hS0 : 0 ≤ S) (hE : 0 ≤ E)
    (N' mlog k' bc lc bk lk : Nat) (hN' : N' = 2 ^ mlog) (hm64 : mlog ≤ 64) (hc : ValidParams w bc lc) (hfit : bc * lc < w)
    (D' B' : Int) (hT' : T'.Accurate N' (lc * (k' + 1)) D' B') (hD' : 2 ^ (bc - 1) ≤ D')
    (hbk : ValidParams w bk lk) (lweKey s key bsk ksks : List (BitVec w)) (hs' : Lwe.BinaryKey lweKey)
    (hsk : KeyFits N k s) (hSs : KeyBound S s) (hbsk : BskEnc N k b l lweKey s bsk E)
    (hs : Lwe.BinaryKey s) (hk : KeyFits N' k' key) (hdim : k' * N' = k * N) (A Bk : Int) (hA : 1 ≤ A) (hS : KeyBound A key)
    (hksks : CbsKeys N' k' bk lk s key ksks Bk)
    (bits : List Bool) (r nout : Nat) (hbits : bits.length = r + mlog) (hb0 : 0 < bits.length) (hr : r < 64) (hno : 0 < nout)
    (bigLut lweIn lweOut : List (BitVec w)) (hlut : bigLut.length = nout * (2 ^ r * N'))
    (hin : lweIn.length = bits.length * (lweKey.length + 1)) (hout : lweOut.length = nout * (k' * N' + 1))
    (e : Nat → Int) (hp : ∀ i, i < bits.length → Lwe.phase lweKey (block (lweKey.length + 1) lweIn i) =
      (((if bits.getD i false then 2 ^ (w - 1) else 0) + e i : Int) : BitVec w))
    (hQ : ∀ i, i < bits.length → |e i| + (1 + weight lweKey) * 2 ^ (w - logN - 2) < 2 ^ (w - 2)) :
    ∃ res, cbsVerticalPacking bld
        (fun buf c => circuitBootstrap bld
          (fun o c a => bootstrap (cmuxFft T N k b l) N logN o c a (bskGgsws T N k l bsk))
          (fun key o c => privateKeyswitchOne bk lk N' k' key o c) N k N' k' bc lc (w - 1) buf
          (chunks ((s.length + 1) * (lk * ((k' + 1) * N'))) ksks) c)
        (convert T' N')
        (fun luts o gs => verticalPacking bld (fun g o c => externalProduct T' N' k' bc lc o g c) N' k' luts o gs)
        N' (lc * ((k' + 1) * ((k' + 1) * N'))) (k * N) (k' * N' + 1) (lweKey.length + 1) bigLut lweOut lweIn = some res ∧
      res.length = nout * (k' * N' + 1) ∧
      ∀ t, t < nout → |(Lwe.phase key (block (k' * N' + 1) res t) -
          bigLut.getD (t * (2 ^ r * N') + indexOf bits) 0).toInt| ≤
        (r + mlog) * epBound w N' k' bc lc A
          (cbsBound w s.length bk lk (lweKey.length * epBound w N k b l S E B 1) A Bk) B' 1 := by
  have hN0 : 0 < N' := by rw [hN']; positivity
  have h2r : 0 < 2 ^ r := by positivity
  have hposin : 0 < lweKey.length + 1 := by omega
  have hposout : 0 < k' * N' + 1 := by omega
  have hcin := chunks_length _ hposin _ _ hin
  have hein := chunks_eq _ hposin _ _ hin
  have hcout := chunks_length _ hposout _ _ hout
  have heout := chunks_eq _ hposout _ _ hout
  generalize hE' : cbsBound w s.length bk lk (lweKey.length * epBound w N k b l S E B 1) A Bk = E'
  obtain ⟨gs, g1, g2, g3⟩ := cbsAll_spec
    (fun buf c => circuitBootstrap bld
      (fun o c a => bootstrap (cmuxFft T N k b l) N logN o c a (bskGgsws T N k l bsk))
      (fun key o c => privateKeyswitchOne bk lk N' k' key o c) N k N' k' bc lc (w - 1) buf
      (chunks ((s.length + 1) * (lk * ((k' + 1) * N'))) ksks) c) (convert T' N')
    (fun buf => buf.length = lc * ((k' + 1) * ((k' + 1) * N')))
    (fun i g => ∃ err : Nat → Nat → Rq (BitVec w) N', (∀ j r, j < lc → r ≤ k' → Small N' E' (err j r)) ∧
        GgswEnc N' k' bc lc key g (if bits.getD i false then 1 else 0) err)
    (chunks (lweKey.length + 1) lweIn) (List.replicate (lc * ((k' + 1) * ((k' + 1) * N'))) 0#w) 0 (by simp) (by
      intro i c hi buf hbuf
      have hib : i < bits.length := by rw [← hcin]; exact (List.getElem?_eq_some_iff.1 hi).1
      have hcb : c = block (lweKey.length + 1) lweIn i := by
        rw [hein] at hi
        simpa [hib] using hi.symm
      have hpi := hp i hib
      rw [← hcb] at hpi
      obtain ⟨res, r1, err, r2, r3⟩ := C46_circuit_bootstrap bld T N k b l logN hNN hlog D B S E hT hD h hB hS0 hE N' k' bc
        lc bk lk (w - 1) hN0 hc.base hc.level hfit hbk lweKey s key bsk ksks hs' hsk hSs hbsk hs hk A Bk hA hS hksks
        (by omega) buf c hbuf (by rw [hcb]; exact block_len _ _ i lweIn hin hib) (if bits.getD i false then 1 else 0) (e i)
        (by rw [hpi]; congr 1; cases bits.getD i false <;> simp) (by
          rw [show w - (w - 1) - 1 = 0 by omega, pow_zero, mul_one]; exact hQ i hib)
      refine ⟨res, r1, r3.1, err, fun j q hj hq => by rw [← hE']; exact r2 j q hj hq, ?_⟩
      rw [Nat.zero_add]
      have : ((if bits.getD i false = true then 1 else 0 : Nat) % 2 = 1) ↔ bits.getD i false = true := by
        cases bits.getD i false <;> simp
      simp only [this] at r3
      exact r3)
  have hbe : BitsEnc N' k' bc lc key gs bits E' := by
    refine ⟨by rw [g2, hcin], fun i hi => ?_⟩
    have hi' : i < gs.length := by rw [g2, hcin]; exact hi
    have := g3 i gs[i] (List.getElem?_eq_getElem hi')
    rw [Nat.zero_add] at this
    rwa [List.getD_eq_getElem?_getD, List.getElem?_eq_getElem hi']
  have hll : (chunks N' bigLut).length = nout * 2 ^ r := chunks_length N' hN0 _ _ (by rw [hlut]; ring)
  have hsmall : (chunks N' bigLut).length / (chunks (k' * N' + 1) lweOut).length = 2 ^ r := by
    rw [hll, hcout, Nat.mul_div_cancel_left _ hno]
  obtain ⟨rs, p1, p2, p3⟩ := packAll_spec
    (fun luts o => verticalPacking bld (fun g o c => externalProduct T' N' k' bc lc o g c) N' k' luts o (gs.map (convert T' N')))
    (fun o => o.length = k' * N' + 1)
    (fun t x => t < nout → Lwe.Fits key x ∧ |(Lwe.phase key x - bigLut.getD (t * (2 ^ r * N') + indexOf bits) 0).toInt| ≤
        (r + mlog) * epBound w N' k' bc lc A E' B' 1)
    (chunks (2 ^ r) (chunks N' bigLut)) (chunks (k' * N' + 1) lweOut) 0
    (by rw [hcout, chunks_length _ h2r nout _ hll])
    (by
      intro o ho
      rw [heout] at ho
      obtain ⟨t, ht, rfl⟩ := List.mem_map.1 ho
      exact block_len _ _ t lweOut hout (List.mem_range.1 ht))
    (by
      intro t lut ht o hol
      have htn : t < nout := by
        have := (List.getElem?_eq_some_iff.1 ht).1
        rwa [chunks_length _ h2r nout _ hll] at this
      rw [chunks_of_chunks N' (2 ^ r) nout hN0 h2r bigLut hlut t htn] at ht
      cases ht
      have hbl := block_len _ nout t bigLut hlut htn
      obtain ⟨out, o1, o2, o3⟩ := C44_lookup bld hw T' N' mlog k' bc lc hN' D' B' A E' hT' hD' hc (by omega) key hk hS gs bits
        hbe (block (2 ^ r * N') bigLut t) r hbl hr hm64 hbits o hol
      refine ⟨out, o1, fun _ => ⟨o2, ?_⟩⟩
      have hidx : indexOf bits < 2 ^ r * N' := by
        calc _ < 2 ^ bits.length := indexOf_lt _
          _ = 2 ^ r * N' := by rw [hbits, pow_add, hN']
      rw [block_getD _ _ _ _ _ hidx] at o3
      rw [Nat.zero_add]
      exact o3)
  rw [hcout] at p2
  have hru : ∀ x ∈ rs, x.length = k' * N' + 1 := by
    intro x hx
    obtain ⟨t, ht, rfl⟩ := List.getElem_of_mem hx
    obtain ⟨q1, -⟩ := p3 t rs[t] (List.getElem?_eq_getElem ht) (by omega)
    rw [Lwe.Fits, hk] at q1
    exact q1
  refine ⟨rs.flatten, ?_, by rw [flatten_length_uniform _ _ hru, p2], fun t ht => ?_⟩
  · rw [cbsVerticalPacking]
    simp only
    rw [if_neg (by rw [hcin]; rintro ⟨_, h' | h'⟩ <;> omega), g1]
    simp only
    rw [if_neg (by omega), hsmall, if_neg (by omega), p1]
    rfl
  · have ht' : t < rs.length := by omega
    rw [block_flatten _ hposout _ hru t rs[t] (List.getElem?_eq_getElem ht')]
    have := p3 t rs[t] (List.getElem?_eq_getElem ht')
    rw [Nat.zero_add] at this
    exact (this ht).2

end Verif.Wop
