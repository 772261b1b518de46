import Verif.Fft.Transfer
/-
Property C84: Fourier entities written on one machine and used on another.
-/
namespace Verif.Fft
open Verif.Float Verif.Poly Verif.Glwe Verif.Pbs Verif.Decomp Verif.BV
open Verif.Serde (Order Wire reorder FourierEntity Schema fourierSerialize fourierDeserialize)

variable {w : ℕ}

/-- C84. Whatever the orders `o`, `o'` in which the plans of the two machines keep the coefficients, writing succeeds and
reading gives an entity with the same fields and the same number of polynomials of the same size, and coefficient number
`i` of polynomial number `j` has the same bits on both machines. -/
theorem C84_coefficients (W : Wire) (hW : W.Faithful) (o o' : Order) (bld : Csprng.Build) (tail : Schema)
    (x : FourierEntity tail) (count : ℕ) (hx : x.fourier.Valid (W.codec o) count) (hf : Serde.Fits tail x.fields) :
    ∃ bytes, fourierSerialize (W.codec o) tail x = .ok bytes ∧ ∀ rest, ∃ y : FourierEntity tail,
      fourierDeserialize (W.codec o') bld tail (bytes ++ rest) = .ok y ∧ y.fields = x.fields ∧
      y.fourier.polySize = x.fourier.polySize ∧ y.fourier.data.length = x.fourier.data.length ∧
      ∀ n j i, n = x.fourier.polySize / 2 → j < count → i < n →
        y.fourier.data[j * n + o'.inv n i]? = x.fourier.data[j * n + o.inv n i]? := by
  obtain ⟨bytes, h1, h2⟩ := Serde.entity_transfer W hW o o' bld tail x count hx hf
  have hl := hx.2.2.1
  have hn : 0 < x.fourier.polySize / 2 := by have := hx.1; omega
  generalize hm : x.fourier.polySize / 2 = n at *
  have hlen : ((chunks n x.fourier.data).flatMap (reorder o o' n)).length = count * n := by
    rw [List.length_flatMap, List.map_congr_left (g := fun _ => n) fun b _ => Serde.reorder_length o o' n b,
      List.map_const', List.sum_replicate, chunks_length n hn count _ hl, smul_eq_mul]
  refine ⟨bytes, h1, fun rest => ⟨_, h2 rest, rfl, rfl, by rw [hlen, hl], ?_⟩⟩
  intro n' j i hn' hj hi
  rw [hn'] at hi ⊢
  clear hn'
  have key : ∀ (l : List Serde.C64) (p : ℕ), l.length = count * n → p < n →
      l[j * n + p]? = ((chunks n l)[j]?.bind fun b => b[p]?) := by
    intro l p hl hp
    rw [chunks_eq n hn count l hl, List.getElem?_map, List.getElem?_range hj]
    simp only [Option.map_some, Option.bind_some, block]
    rw [List.getElem?_take, if_pos hp, List.getElem?_drop]
  dsimp only
  rw [key _ _ hlen (o'.inv_lt hi), key _ _ hl (o.inv_lt hi), Serde.chunks_reorder o o' n hn, List.getElem?_map]
  have hjc : j < (chunks n x.fourier.data).length := by rw [chunks_length n hn count _ hl]; exact hj
  rw [List.getElem?_eq_getElem hjc]
  simp only [Option.map_some, Option.bind_some]
  have hb : ((chunks n x.fourier.data)[j]).length = n := by
    have hmem := List.getElem_mem hjc
    revert hmem
    generalize (chunks n x.fourier.data)[j] = b
    intro hmem
    rw [chunks_eq _ hn _ _ hl, List.mem_map] at hmem
    obtain ⟨i, hi, rfl⟩ := hmem
    rw [List.mem_range] at hi
    have : (i + 1) * n ≤ count * n := Nat.mul_le_mul_right _ (by omega)
    rw [Nat.add_mul] at this
    simp only [block, List.length_take, List.length_drop, hl]
    omega
  rw [reorder, List.getElem?_map, List.getElem?_range (o'.inv_lt hi)]
  simp only [Option.map_some, o'.ord_inv hi]
  rw [List.getD_eq_getElem?_getD, List.getElem?_eq_getElem (by rw [hb]; exact o.inv_lt hi)]
  rfl

/-- The memory of the second machine, after reading what the first machine wrote. -/
theorem read_keys (W : Wire) (hW : W.Faithful) (o o' : Order) (bld : Csprng.Build) (tail : Schema) (n : ℕ) (hn : 0 < n)
    (c c' : Cpu) (plan plan' : Plan) (tw tw' : List C64) (coefs : List (BitVec w))
    (x : FourierEntity tail) (count : ℕ) (hx : x.fourier.Valid (W.codec o) count) (hf : Serde.Fits tail x.fields)
    (hsize : x.fourier.polySize = 2 * n) (hmem : keyOf n x.fourier.data = convert (fftTransform w c plan tw) (2 * n) coefs) :
    ∃ bytes, fourierSerialize (W.codec o) tail x = .ok bytes ∧ ∃ y : FourierEntity tail,
      fourierDeserialize (W.codec o') bld tail bytes = .ok y ∧ y.fields = x.fields ∧ y.fourier.polySize = 2 * n ∧
      keyOf n y.fourier.data =
        convert (withKeys w c' plan' tw' fun p => reorderC o o' n (forwardAsTorus plan tw p)) (2 * n) coefs := by
  obtain ⟨bytes, h1, h2⟩ := Serde.entity_transfer W hW o o' bld tail x count hx hf
  have hm : x.fourier.polySize / 2 = n := by omega
  have hl := hx.2.2.1
  rw [hm] at h2 hl
  have h3 := h2 []
  rw [List.append_nil] at h3
  refine ⟨bytes, h1, _, h3, rfl, hsize, ?_⟩
  dsimp only
  rw [keyOf_reorder o o' n hn count _ hl, hmem, convert, convert]
  exact List.map_map

/-- C84. A bootstrap key converted to the Fourier domain on one machine (`plan`, `sinCos`, order `o`), serialized there,
deserialized on another (`plan'`, `sinCos'`, order `o'`, processor `c'`) and used there for a bootstrap, gives an output
whose phase is the table value at the switched phase, up to the bound of C63. `x` is the entity in the memory of the
first machine: its words are the coefficients the conversion computes. Partial: with the restrictions of C63 on the second
machine (no 64-bit AVX-512 version, size at least 16). -/
theorem C84_bootstrap_partial (hw : w = 32 ∨ w = 64) (logN k b l : ℕ) (h4 : 4 ≤ logN) (h40 : logN ≤ 40)
    (hlog : logN + 2 < w) (W : Wire) (hW : W.Faithful) (bld : Csprng.Build) (std : ℕ → ℂ)
    (hstd : Roots (2 ^ (logN - 1)) std) (ε : ℝ) (hε : 0 ≤ ε)
    (o : Order) (c : Cpu) (plan : Plan) (hfwd : FwdOk (2 ^ (logN - 1)) plan (inOrder o (2 ^ (logN - 1)) std) ε)
    (sinCos : F64 → F64 × F64) (hsc : SinCosAccurate sinCos)
    (o' : Order) (c' : Cpu) (hcpu : w = 64 → backwardIsa 64 c' ≠ .avx512) (plan' : Plan)
    (hfwd' : FwdOk (2 ^ (logN - 1)) plan' (inOrder o' (2 ^ (logN - 1)) std) ε)
    (hinv' : InvOk (2 ^ (logN - 1)) plan' (inOrder o' (2 ^ (logN - 1)) std) ε)
    (sinCos' : F64 → F64 × F64) (hsc' : SinCosAccurate sinCos')
    (hκ : ε + ((l * (k + 1) : ℕ) + 1) / 2 ^ 48 ≤ 1 / 100) (S E : ℤ) (h : ValidParams w b l) (hS0 : 0 ≤ S) (hE : 0 ≤ E)
    (lweKey key bsk acc v lweIn lweOut : List (BitVec w)) (hk : KeyFits (2 ^ logN) k key) (hS : KeyBound S key)
    (hs : Lwe.BinaryKey lweKey) (hbsk : BskEnc (2 ^ logN) k b l lweKey key bsk E) (hacc : CtFits (2 ^ logN) k acc)
    (hv : v.length = 2 ^ logN) (hphase : glwePhase (2 ^ logN) k key acc = toRq (2 ^ logN) v)
    (hin : Lwe.Fits lweKey lweIn) (hout : lweOut.length = k * 2 ^ logN + 1)
    (x : FourierEntity Schema.fourierBskTail) (count : ℕ) (hx : x.fourier.Valid (W.codec o) count)
    (hf : Serde.Fits Schema.fourierBskTail x.fields) (hsize : x.fourier.polySize = 2 ^ logN)
    (hmem : keyOf (2 ^ (logN - 1)) x.fourier.data =
      convert (fftTransform w c plan (twisties sinCos (2 ^ (logN - 1)))) (2 ^ logN) bsk) :
    ∃ bytes, fourierSerialize (W.codec o) _ x = .ok bytes ∧ ∃ y,
      fourierDeserialize (W.codec o') bld Schema.fourierBskTail bytes = .ok y ∧ y.fields = x.fields ∧
      y.fourier.polySize = 2 ^ logN ∧
      ∃ r, bootstrap (cmuxFft (fftTransform w c' plan' (twisties sinCos' (2 ^ (logN - 1)))) (2 ^ logN) k b l) (2 ^ logN) logN
            lweOut lweIn acc (chunks (l * ((k + 1) * (k + 1))) (keyOf (2 ^ (logN - 1)) y.fourier.data)) = some r ∧
        Lwe.Fits key r ∧
        ∀ d, IsSwitchedPhase logN lweKey lweIn d →
          |(Lwe.phase key r - ext (2 ^ logN) v d).toInt| ≤
            lweKey.length * epBound w (2 ^ logN) k b l S E (fftError w (2 ^ logN) (l * (k + 1)) (2 ^ (b - 1)) ε) 1 := by
  have e : 2 ^ logN = 2 * 2 ^ (logN - 1) := by rw [← pow_succ']; congr 1; omega
  have hn0 : 0 < 2 ^ (logN - 1) := by positivity
  have h8 : 8 ∣ 2 ^ (logN - 1) := by rw [show 8 = 2 ^ 3 from rfl]; exact pow_dvd_pow 2 (by omega)
  have hn : 2 ^ (logN - 1) ≤ 2 ^ 40 := Nat.pow_le_pow_right (by norm_num) (by omega)
  have hb : b ≤ 64 := by
    have h1 := h.3
    have h2 : 1 * b ≤ l * b := Nat.mul_le_mul_right b h.2
    have h3 : b * l = l * b := Nat.mul_comm b l
    omega
  obtain ⟨bytes, h1, y, h2, h3, h4, h5⟩ := read_keys W hW o o' bld _ (2 ^ (logN - 1)) hn0 c c' plan plan'
    (twisties sinCos (2 ^ (logN - 1))) (twisties sinCos' (2 ^ (logN - 1))) bsk x count hx hf (by rw [hsize, e])
    (by rw [hmem, e])
  refine ⟨bytes, h1, y, h2, h3, by rw [h4, e], ?_⟩
  have hacc' := transferred_accurate hw (2 ^ (logN - 1)) hn0 h8 hn o o' std hstd ε hε plan hfwd _
    (twisties_accurate sinCos hsc _ hn0 hn) c' hcpu plan' hfwd' hinv' _ (twisties_accurate sinCos' hsc' _ hn0 hn)
    (l * (k + 1)) (2 ^ (b - 1)) (one_le_pow₀ (by norm_num)) (pow_le_pow_right₀ (by norm_num) (by omega)) hκ
    (fftError w (2 ^ logN) (l * (k + 1)) (2 ^ (b - 1)) ε) (by
      have := fftError_le w (2 ^ logN) (l * (k + 1)) (2 ^ (b - 1)) ε
      rw [e] at this ⊢
      push_cast at this ⊢
      exact this)
  rw [← e] at hacc' h5
  obtain ⟨r, r1, _, r2, r3⟩ := C31_bootstrap _ (2 ^ logN) k b l logN rfl hlog _ _ S E hacc' le_rfl h
    (fftError_nonneg _ _ _ _ (by positivity) _ hε) hS0 hE lweKey key bsk acc v lweIn lweOut hk hS hs hbsk hacc hv hphase
    hin hout
  refine ⟨r, ?_, r2, r3⟩
  rw [h5]
  exact r1

/-- C84. The same for a GGSW ciphertext and the external product on the second machine: it adds `m` times the phase of
the GLWE ciphertext to the phase of the output, up to the bound of C27. -/
theorem C84_external_product_partial (hw : w = 32 ∨ w = 64) (n k b l : ℕ) (hn0 : 0 < n) (h8 : 8 ∣ n) (hn : n ≤ 2 ^ 40)
    (W : Wire) (hW : W.Faithful) (bld : Csprng.Build) (std : ℕ → ℂ) (hstd : Roots n std) (ε : ℝ) (hε : 0 ≤ ε)
    (o : Order) (c : Cpu) (plan : Plan) (hfwd : FwdOk n plan (inOrder o n std) ε)
    (sinCos : F64 → F64 × F64) (hsc : SinCosAccurate sinCos)
    (o' : Order) (c' : Cpu) (hcpu : w = 64 → backwardIsa 64 c' ≠ .avx512) (plan' : Plan)
    (hfwd' : FwdOk n plan' (inOrder o' n std) ε) (hinv' : InvOk n plan' (inOrder o' n std) ε)
    (sinCos' : F64 → F64 × F64) (hsc' : SinCosAccurate sinCos')
    (hκ : ε + ((l * (k + 1) : ℕ) + 1) / 2 ^ 48 ≤ 1 / 100) (S E : ℤ) (h : ValidParams w b l)
    (key out ggsw ct : List (BitVec w)) (m : ℤ) (err : ℕ → ℕ → Rq (BitVec w) (2 * n))
    (hk : KeyFits (2 * n) k key) (hS : KeyBound S key) (ho : CtFits (2 * n) k out) (hc : CtFits (2 * n) k ct)
    (hg : GgswEnc (2 * n) k b l key ggsw (AdjoinRoot.of _ (m : BitVec w)) err)
    (hE : ∀ j r, j < l → r ≤ k → Small (2 * n) E (err j r))
    (x : FourierEntity Schema.fourierGgswTail) (count : ℕ) (hx : x.fourier.Valid (W.codec o) count)
    (hf : Serde.Fits Schema.fourierGgswTail x.fields) (hsize : x.fourier.polySize = 2 * n)
    (hmem : keyOf n x.fourier.data = convert (fftTransform w c plan (twisties sinCos n)) (2 * n) ggsw) :
    ∃ bytes, fourierSerialize (W.codec o) _ x = .ok bytes ∧ ∃ y,
      fourierDeserialize (W.codec o') bld Schema.fourierGgswTail bytes = .ok y ∧ y.fields = x.fields ∧
      y.fourier.polySize = 2 * n ∧
      ∃ e : Rq (BitVec w) (2 * n),
        Small (2 * n) (epBound w (2 * n) k b l S E (fftError w (2 * n) (l * (k + 1)) (2 ^ (b - 1)) ε) |m|) e ∧
        glwePhase (2 * n) k key (externalProduct (fftTransform w c' plan' (twisties sinCos' n)) (2 * n) k b l out
            (keyOf n y.fourier.data) ct) =
          glwePhase (2 * n) k key out + AdjoinRoot.of _ (m : BitVec w) * glwePhase (2 * n) k key ct + e := by
  have hb : b ≤ 64 := by
    have h1 := h.3
    have h2 : 1 * b ≤ l * b := Nat.mul_le_mul_right b h.2
    have h3 : b * l = l * b := Nat.mul_comm b l
    omega
  obtain ⟨bytes, h1, y, h2, h3, h4, h5⟩ := read_keys W hW o o' bld _ n hn0 c c' plan plan'
    (twisties sinCos n) (twisties sinCos' n) ggsw x count hx hf hsize hmem
  refine ⟨bytes, h1, y, h2, h3, h4, ?_⟩
  have hacc' := transferred_accurate hw n hn0 h8 hn o o' std hstd ε hε plan hfwd _
    (twisties_accurate sinCos hsc _ hn0 hn) c' hcpu plan' hfwd' hinv' _ (twisties_accurate sinCos' hsc' _ hn0 hn)
    (l * (k + 1)) (2 ^ (b - 1)) (one_le_pow₀ (by norm_num)) (pow_le_pow_right₀ (by norm_num) (by omega)) hκ
    (fftError w (2 * n) (l * (k + 1)) (2 ^ (b - 1)) ε) (by
      have := fftError_le w (2 * n) (l * (k + 1)) (2 ^ (b - 1)) ε
      push_cast at this ⊢
      exact this)
  obtain ⟨_, r, r1, r2⟩ := C27_error_bound _ (2 * n) k b l (by omega) _ _ S E hacc' le_rfl h key out ggsw ct m err hk hS ho hc hg hE
  refine ⟨r, r1, ?_⟩
  rw [h5]
  exact r2

end Verif.Fft
