import Verif.Session.Local
/-
Every encryption and key generation function reads only the bytes it consumes.
-/
namespace Verif.Session
open Verif.Random Verif.Engine
variable {w : Nat}

/-! ### LWE -/

theorem localE_encryptLwe (f : GaussianFn w) (key out : List (BitVec w)) (msg : BitVec w) :
    LocalE (Lwe.encryptLwe f key out msg) := by
  by_cases h : out.length = 0
  · exact localE_congr (fun g => if_pos h) localE_none
  · refine localE_congr (fun g => ?_) (localE_bind (localE_mask (local_rep (local_uniform w) (out.length - 1)))
      fun mask => localE_map (fun e => mask ++ [e + Lwe.multisum mask key + msg]) (localE_noise (local_noise f)))
    simp only [Lwe.encryptLwe, if_neg h, Lwe.fillMaskAndBody]
    cases rep (out.length - 1) (uniform w) g.mask with
    | none => rfl
    | some r => cases hn : randomNoise f g.noise <;> simp [hn]

theorem localE_encryptLweListAux (f : GaussianFn w) (key : List (BitVec w)) :
    ∀ (cs : List (List (BitVec w))) (ms : List (BitVec w)), LocalE (Lwe.encryptLweListAux f key cs ms)
  | c :: cs, m :: ms => by
    refine localE_congr (fun g => ?_) (localE_bind (localE_encryptLwe f key c m) fun ct =>
      localE_map (fun cts => ct :: cts) (localE_encryptLweListAux f key cs ms))
    simp only [Lwe.encryptLweListAux]
    cases Lwe.encryptLwe f key c m g with
    | none => rfl
    | some r => cases hn : Lwe.encryptLweListAux f key cs ms r.2 <;> simp [hn]
  | [], _ => localE_congr (fun g => by rw [Lwe.encryptLweListAux]; simp) (localE_pure [])
  | c :: cs, [] => localE_congr (fun g => by rw [Lwe.encryptLweListAux]; simp) (localE_pure (c :: cs))

theorem localE_encryptLweList (f : GaussianFn w) (key : List (BitVec w)) (n : Nat) (out ms : List (BitVec w)) :
    LocalE (Lwe.encryptLweList f key n out ms) := by
  refine localE_congr (fun g => ?_) (localE_map List.flatten (localE_encryptLweListAux f key (chunks n out) ms))
  simp only [Lwe.encryptLweList]
  cases Lwe.encryptLweListAux f key (chunks n out) ms g <;> rfl

theorem localE_parEncryptLweList (f : GaussianFn w) (key : List (BitVec w)) (n : Nat)
    (out ms : List (BitVec w)) (sched : List Nat) :
    LocalE (fun g => Lwe.parEncryptLweList f key n out ms g sched) := by
  refine localE_par _ (chunks n out).length (maskBytesPerLwe w (n - 1)) noiseBytesPerLwe
    (Lwe.parEncryptJob f key ms) sched (chunks n out) List.flatten ?_ ?_
    (fun i c => match ms[i]? with
      | none => fun g => some (c, g)
      | some m => Lwe.encryptLwe f key c m) ?_ ?_
  · intro g g' e h
    simp only [Lwe.parEncryptLweList, EncGen.forkLweListToLwe, h]
  · intro g g' gens h
    simp only [Lwe.parEncryptLweList, EncGen.forkLweListToLwe, h]
    cases parFor (Lwe.parEncryptJob f key ms gens) sched (chunks n out) <;> rfl
  · intro i c
    cases ms[i]? with
    | none => exact localE_pure c
    | some m => exact localE_encryptLwe f key c m
  · intro gens i c
    cases h1 : ms[i]? <;> cases h2 : gens[i]? <;> simp only [Lwe.parEncryptJob, h1, h2] <;> rfl

theorem localE_zeroEncryptVec (f : GaussianFn w) (key : List (BitVec w)) (count : Nat) :
    LocalE (fun g => (zeroEncryptVec f key count g).map fun r => (r.1.data, r.2)) := by
  refine localE_congr (fun g => ?_) (localE_encryptLweList f key (key.length + 1)
    (List.replicate ((key.length + 1) * count) 0) (List.replicate count 0))
  simp only [zeroEncryptVec]
  cases Lwe.encryptLweList f key (key.length + 1) (List.replicate ((key.length + 1) * count) 0)
    (List.replicate count 0) g <;> rfl

theorem localE_fillKeyswitchKeyAux (f : GaussianFn w) (key : List (BitVec w)) (b l n : Nat) :
    ∀ (bits : List (BitVec w)) (blks : List (List (BitVec w))),
    LocalE (Lwe.fillKeyswitchKeyAux f key b l n bits blks)
  | bit :: bits, blk :: blks => by
    refine localE_congr (fun g => ?_) (localE_bind
      (localE_encryptLweList f key n blk (Lwe.kskMessages b l bit)) fun ct =>
      localE_map (fun cts => ct :: cts) (localE_fillKeyswitchKeyAux f key b l n bits blks))
    simp only [Lwe.fillKeyswitchKeyAux]
    cases Lwe.encryptLweList f key n blk (Lwe.kskMessages b l bit) g with
    | none => rfl
    | some r => cases hn : Lwe.fillKeyswitchKeyAux f key b l n bits blks r.2 <;> simp [hn]
  | [], blks => localE_congr (fun g => by rw [Lwe.fillKeyswitchKeyAux]; simp) (localE_pure blks)
  | bit :: bits, [] => localE_congr (fun g => by rw [Lwe.fillKeyswitchKeyAux]; simp) (localE_pure [])

theorem localE_fillKeyswitchKey (f : GaussianFn w) (s key : List (BitVec w)) (b l n : Nat)
    (ksk : List (BitVec w)) : LocalE (Lwe.fillKeyswitchKey f s key b l n ksk) := by
  refine localE_congr (fun g => ?_) (localE_map List.flatten
    (localE_fillKeyswitchKeyAux f key b l n s (chunks (l * n) ksk)))
  simp only [Lwe.fillKeyswitchKey]
  cases Lwe.fillKeyswitchKeyAux f key b l n s (chunks (l * n) ksk) g <;> rfl

/-! ### GLWE -/

theorem localE_encryptGlwe (f : GaussianFn w) (key : List (BitVec w)) (N : Nat) (out msg : List (BitVec w)) :
    LocalE (Glwe.encryptGlwe f key N out msg) := by
  refine localE_congr (fun g => ?_) (localE_bind (localE_noise (local_noiseTensor f N)) fun e =>
    localE_map (fun mask => mask ++ Poly.add (Poly.addMultisum e (chunks N mask) (chunks N key)) msg)
      (localE_mask (local_rep (local_uniform w) (out.length - N))))
  simp only [Glwe.encryptGlwe, Glwe.fillMaskAndBody]
  cases randomNoiseTensor f N g.noise with
  | none => rfl
  | some r => cases hn : rep (out.length - N) (uniform w) g.mask <;> simp [hn]

theorem localE_encryptZeroGlwe (f : GaussianFn w) (key : List (BitVec w)) (N : Nat) (out : List (BitVec w)) :
    LocalE (Glwe.encryptZeroGlwe f key N out) := by
  refine localE_congr (fun g => ?_) (localE_bind (localE_noise (local_noiseTensor f N)) fun e =>
    localE_map (fun mask => mask ++ Poly.addMultisum e (chunks N mask) (chunks N key))
      (localE_mask (local_rep (local_uniform w) (out.length - N))))
  simp only [Glwe.encryptZeroGlwe]
  cases randomNoiseTensor f N g.noise with
  | none => rfl
  | some r => cases hn : rep (out.length - N) (uniform w) g.mask <;> simp [hn]

theorem localE_encryptGlweListAux (f : GaussianFn w) (key : List (BitVec w)) (N : Nat) :
    ∀ (cs ms : List (List (BitVec w))), LocalE (Glwe.encryptGlweListAux f key N cs ms)
  | c :: cs, m :: ms => by
    refine localE_congr (fun g => ?_) (localE_bind (localE_encryptGlwe f key N c m) fun ct =>
      localE_map (fun cts => ct :: cts) (localE_encryptGlweListAux f key N cs ms))
    simp only [Glwe.encryptGlweListAux]
    cases Glwe.encryptGlwe f key N c m g with
    | none => rfl
    | some r => cases hn : Glwe.encryptGlweListAux f key N cs ms r.2 <;> simp [hn]
  | [], _ => localE_congr (fun g => by rw [Glwe.encryptGlweListAux]; simp) (localE_pure [])
  | c :: cs, [] => localE_congr (fun g => by rw [Glwe.encryptGlweListAux]; simp) (localE_pure (c :: cs))

theorem localE_encryptGlweList (f : GaussianFn w) (key : List (BitVec w)) (N k : Nat)
    (out ms : List (BitVec w)) : LocalE (Glwe.encryptGlweList f key N k out ms) := by
  refine localE_congr (fun g => ?_) (localE_map List.flatten
    (localE_encryptGlweListAux f key N (chunks ((k + 1) * N) out) (chunks N ms)))
  simp only [Glwe.encryptGlweList]
  cases Glwe.encryptGlweListAux f key N (chunks ((k + 1) * N) out) (chunks N ms) g <;> rfl

theorem localE_encryptZeroGlweListAux (f : GaussianFn w) (key : List (BitVec w)) (N : Nat) :
    ∀ (cs : List (List (BitVec w))), LocalE (encryptZeroGlweListAux f key N cs)
  | c :: cs => by
    refine localE_congr (fun g => ?_) (localE_bind (localE_encryptZeroGlwe f key N c) fun ct =>
      localE_map (fun cts => ct :: cts) (localE_encryptZeroGlweListAux f key N cs))
    simp only [encryptZeroGlweListAux]
    cases Glwe.encryptZeroGlwe f key N c g with
    | none => rfl
    | some r => cases hn : encryptZeroGlweListAux f key N cs r.2 <;> simp [hn]
  | [] => localE_pure []

theorem localE_encryptZeroGlweList (f : GaussianFn w) (key : List (BitVec w)) (N k : Nat)
    (out : List (BitVec w)) : LocalE (encryptZeroGlweList f key N k out) := by
  refine localE_congr (fun g => ?_) (localE_map List.flatten
    (localE_encryptZeroGlweListAux f key N (chunks ((k + 1) * N) out)))
  simp only [encryptZeroGlweList]
  cases encryptZeroGlweListAux f key N (chunks ((k + 1) * N) out) g <;> rfl

/-! ### GGSW and bootstrap keys -/

/-- The work on one level matrix, as an action on its generator. -/
def levelAct (enc : List (BitVec w) → List (BitVec w) → Act (List (BitVec w))) (key : List (BitVec w))
    (N k : Nat) (factor : BitVec w) (sched : List Nat) (rows : List (List (BitVec w))) :
    Act (List (BitVec w)) := fun g =>
  match g.forkGgswLevelToGlwe w (k + 1) N with
  | (.error _, _) => none
  | (.ok rowGens, g') =>
    match parFor (Glwe.ggswRowJob (fun m g row => (enc m row g).map (·.1)) key N k factor rowGens) sched rows with
    | none => none
    | some r => some (r.flatten, g')

theorem localE_ggswLevel (enc : List (BitVec w) → List (BitVec w) → Act (List (BitVec w)))
    (henc : ∀ m row, LocalE (enc m row)) (key : List (BitVec w)) (N k : Nat) (factor : BitVec w)
    (sched : List Nat) (rows : List (List (BitVec w))) :
    LocalE (levelAct enc key N k factor sched rows) := by
  refine localE_par _ (k + 1) (maskBytesPerGlwe w (k + 1 - 1) N) (noiseBytesPerGlwe N)
    (Glwe.ggswRowJob (fun m g row => (enc m row g).map (·.1)) key N k factor) sched rows List.flatten ?_ ?_
    (fun r row => enc (Glwe.rowPlaintext key N k factor r) row) (fun r row => henc _ _) ?_
  · intro g g' e h
    simp only [levelAct, EncGen.forkGgswLevelToGlwe, h]
  · intro g g' gens h
    simp only [levelAct, EncGen.forkGgswLevelToGlwe, h]
    cases parFor (Glwe.ggswRowJob (fun m g row => (enc m row g).map (·.1)) key N k factor gens) sched rows <;> rfl
  · intro gens i c
    cases h : gens[i]? <;> simp only [Glwe.ggswRowJob, h] <;> rfl

theorem localE_ggswFill (enc : List (BitVec w) → List (BitVec w) → Act (List (BitVec w)))
    (henc : ∀ m row, LocalE (enc m row)) (rowSize : Nat) (key : List (BitVec w)) (N k b : Nat)
    (sched : List Nat) (rowSched : Nat → List Nat) (out : List (BitVec w)) (msg : BitVec w) :
    LocalE (Glwe.ggswFill (fun m g row => (enc m row g).map (·.1)) rowSize key N k b sched rowSched out msg) := by
  refine localE_par _ (out.length / ((k + 1) * rowSize)) (maskBytesPerGgswLevel w (k + 1) N)
    (noiseBytesPerGgswLevel (k + 1) N)
    (fun gens => Glwe.ggswLevelJob (fun m g row => (enc m row g).map (·.1)) rowSize key N k b msg gens rowSched)
    sched (chunks ((k + 1) * rowSize) out) List.flatten ?_ ?_
    (fun j matrix => levelAct enc key N k (-msg * Glwe.gadget w b (j + 1)) (rowSched j) (chunks rowSize matrix))
    (fun j matrix => localE_ggswLevel enc henc key N k _ (rowSched j) (chunks rowSize matrix)) ?_
  · intro g g' e h
    simp only [Glwe.ggswFill, EncGen.forkGgswToGgswLevels, h]
  · intro g g' gens h
    simp only [Glwe.ggswFill, EncGen.forkGgswToGgswLevels, h]
    cases parFor (Glwe.ggswLevelJob (fun m g row => (enc m row g).map (·.1)) rowSize key N k b msg gens rowSched)
      sched (chunks ((k + 1) * rowSize) out) <;> rfl
  intro gens j c
  cases h : gens[j]? with
  | none => simp only [Glwe.ggswLevelJob, h]; rfl
  | some g =>
    simp only [Glwe.ggswLevelJob, h]
    show _ = Option.map _ _
    rcases hf : g.forkGgswLevelToGlwe w (k + 1) N with ⟨r | gens', g'⟩
    · simp only [levelAct, hf]; rfl
    · simp only [levelAct, hf]
      cases parFor (Glwe.ggswRowJob (fun m g row => (enc m row g).map (·.1)) key N k
          (-msg * Glwe.gadget w b (j + 1)) gens') (rowSched j) (chunks rowSize c) <;> rfl

theorem localE_parEncryptGgsw (f : GaussianFn w) (key : List (BitVec w)) (N k b : Nat) (sched : List Nat)
    (rowSched : Nat → List Nat) (out : List (BitVec w)) (msg : BitVec w) :
    LocalE (Glwe.parEncryptGgsw f key N k b sched rowSched out msg) :=
  localE_ggswFill (fun m row => Glwe.encryptGlwe f key N row m) (fun _ _ => localE_encryptGlwe f key N _ _)
    ((k + 1) * N) key N k b sched rowSched out msg

theorem localE_encryptGgsw (f : GaussianFn w) (key : List (BitVec w)) (N k b : Nat) (out : List (BitVec w))
    (msg : BitVec w) : LocalE (Glwe.encryptGgsw f key N k b out msg) :=
  localE_ggswFill (fun m row => Glwe.encryptGlwe f key N row m) (fun _ _ => localE_encryptGlwe f key N _ _)
    ((k + 1) * N) key N k b _ _ out msg

theorem localE_bskFill (fill : Nat → List (BitVec w) → BitVec w → Act (List (BitVec w)))
    (hfill : ∀ i c s, LocalE (fill i c s)) (ggswSize : Nat) (lweKey : List (BitVec w)) (N k level : Nat)
    (sched : List Nat) (out : List (BitVec w)) :
    LocalE (Glwe.bskFill fill ggswSize lweKey N k level sched out) := by
  refine localE_par _ lweKey.length (maskBytesPerGgsw w level (k + 1) N) (noiseBytesPerGgsw level (k + 1) N)
    (Glwe.bskJob fill lweKey) sched (chunks ggswSize (out.map fun _ => 0#w)) List.flatten ?_ ?_
    (fun i c => match lweKey[i]? with
      | none => fun g => some (c, g)
      | some s => fill i c s) ?_ ?_
  · intro g g' e h
    simp only [Glwe.bskFill, EncGen.forkBskToGgsw, h]
  · intro g g' gens h
    simp only [Glwe.bskFill, EncGen.forkBskToGgsw, h]
    cases parFor (Glwe.bskJob fill lweKey gens) sched (chunks ggswSize (out.map fun _ => 0#w)) <;> rfl
  · intro i c
    cases lweKey[i]? with
    | none => exact localE_pure c
    | some s => exact hfill i c s
  · intro gens i c
    cases h1 : lweKey[i]? <;> cases h2 : gens[i]? <;> simp only [Glwe.bskJob, h1, h2] <;> rfl

theorem localE_fillBsk (f : GaussianFn w) (lweKey key : List (BitVec w)) (N k b level : Nat)
    (out : List (BitVec w)) : LocalE (Glwe.fillBsk f lweKey key N k b level out) :=
  localE_bskFill _ (fun _ _ _ => localE_encryptGgsw _ _ _ _ _ _ _) _ _ _ _ _ _ _

theorem localE_parFillBsk (f : GaussianFn w) (lweKey key : List (BitVec w)) (N k b level : Nat)
    (sched : List Nat) (levelSched : Nat → List Nat) (rowSched : Nat → Nat → List Nat) (out : List (BitVec w)) :
    LocalE (Glwe.parFillBsk f lweKey key N k b level sched levelSched rowSched out) :=
  localE_bskFill _ (fun _ _ _ => localE_parEncryptGgsw _ _ _ _ _ _ _ _ _) _ _ _ _ _ _ _

/-! ### Packing keyswitch keys -/

theorem localE_fillPackingKeyAux (f : GaussianFn w) (key : List (BitVec w)) (b l N k : Nat) :
    ∀ (bits : List (BitVec w)) (blks : List (List (BitVec w))),
    LocalE (Pks.fillPackingKeyAux f key b l N k bits blks)
  | bit :: bits, blk :: blks => by
    refine localE_congr (fun g => ?_) (localE_bind
      (localE_encryptGlweList f key N k blk (Pks.packingMessages b l N bit)) fun ct =>
      localE_map (fun cts => ct :: cts) (localE_fillPackingKeyAux f key b l N k bits blks))
    simp only [Pks.fillPackingKeyAux]
    cases Glwe.encryptGlweList f key N k blk (Pks.packingMessages b l N bit) g with
    | none => rfl
    | some r => cases hn : Pks.fillPackingKeyAux f key b l N k bits blks r.2 <;> simp [hn]
  | [], blks => localE_congr (fun g => by rw [Pks.fillPackingKeyAux]; simp) (localE_pure blks)
  | bit :: bits, [] => localE_congr (fun g => by rw [Pks.fillPackingKeyAux]; simp) (localE_pure [])

theorem localE_fillPackingKey (f : GaussianFn w) (s key : List (BitVec w)) (b l N k : Nat)
    (ksk : List (BitVec w)) : LocalE (Pks.fillPackingKey f s key b l N k ksk) := by
  refine localE_congr (fun g => ?_) (localE_map List.flatten
    (localE_fillPackingKeyAux f key b l N k s (chunks (l * ((k + 1) * N)) ksk)))
  simp only [Pks.fillPackingKey]
  cases Pks.fillPackingKeyAux f key b l N k s (chunks (l * ((k + 1) * N)) ksk) g <;> rfl

theorem localE_parFillPrivateKey (f : GaussianFn w) (s key : List (BitVec w)) (b l N k : Nat) (fone : BitVec w)
    (P : List (BitVec w)) (sched : List Nat) (ksk : List (BitVec w)) :
    LocalE (Pks.parFillPrivateKey f s key b l N k fone P sched ksk) := by
  refine localE_par _ (s.length + 1) (maskBytesPerPfpkskChunk w l (k + 1) N) (noiseBytesPerPfpkskChunk l N)
    (Pks.privateJob f key b l N k fone P (s ++ [BitVec.allOnes w])) sched
    (chunks (l * ((k + 1) * N)) ksk) List.flatten ?_ ?_
    (fun i blk => match (s ++ [BitVec.allOnes w])[i]? with
      | none => fun g => some (blk, g)
      | some bit => Glwe.encryptGlweList f key N k blk (Pks.privateMessages b l N fone P bit)) ?_ ?_
  · intro g g' e h
    simp only [Pks.parFillPrivateKey, EncGen.forkPfpkskToChunks, h]
  · intro g g' gens h
    simp only [Pks.parFillPrivateKey, EncGen.forkPfpkskToChunks, h]
    cases parFor (Pks.privateJob f key b l N k fone P (s ++ [BitVec.allOnes w]) gens) sched
      (chunks (l * ((k + 1) * N)) ksk) <;> rfl
  · intro i c
    cases (s ++ [BitVec.allOnes w])[i]? with
    | none => exact localE_pure c
    | some m => exact localE_encryptGlweList _ _ _ _ _ _
  · intro gens i c
    cases h1 : (s ++ [BitVec.allOnes w])[i]? <;> cases h2 : gens[i]? <;>
      simp only [Pks.privateJob, h1, h2] <;> rfl

theorem localE_parFillCbsKeys (bld : Csprng.Build) (f : GaussianFn w) (s key : List (BitVec w))
    (b l N k count : Nat) (sched : List Nat) (inner : Nat → List Nat) (ksks : List (BitVec w)) :
    LocalE (Pks.parFillCbsKeys bld f s key b l N k count sched inner ksks) := by
  by_cases hd : bld = .debug ∧ count ≠ k + 1
  · exact localE_congr (fun g => if_pos hd) localE_none
  · refine localE_par _ count (maskBytesPerPfpksk w l (k + 1) N (s.length + 1))
      (noiseBytesPerPfpksk l N (s.length + 1))
      (Pks.cbsJob f s key b l N k inner) sched
      (chunks ((s.length + 1) * (l * ((k + 1) * N))) ksks) List.flatten ?_ ?_
      (fun i ksk => match (Pks.cbsPolynomials N key)[i]? with
        | none => fun g => some (ksk, g)
        | some P => Pks.parFillPrivateKey f s key b l N k (0#w - 1#w) P (inner i) ksk) ?_ ?_
    · intro g g' e h
      simp only [Pks.parFillCbsKeys, EncGen.forkCbsPfpkskToPfpksk, h, if_neg hd]
    · intro g g' gens h
      simp only [Pks.parFillCbsKeys, EncGen.forkCbsPfpkskToPfpksk, h, if_neg hd]
      cases parFor (Pks.cbsJob f s key b l N k inner gens) sched
        (chunks ((s.length + 1) * (l * ((k + 1) * N))) ksks) <;> rfl
    · intro i c
      cases (Pks.cbsPolynomials N key)[i]? with
      | none => exact localE_pure c
      | some m => exact localE_parFillPrivateKey _ _ _ _ _ _ _ _ _ _ _
    · intro gens i c
      cases h1 : (Pks.cbsPolynomials N key)[i]? <;> cases h2 : gens[i]? <;>
        simp only [Pks.cbsJob, h1, h2] <;> rfl

/-- Every call on the encryption generator reads only the bytes it consumes. -/
theorem localE_exec (bld : Csprng.Build) : ∀ c : EncCall w, LocalE (c.exec bld) := by
  intro c
  cases c with
  | lwe f key msg => exact localE_encryptLwe _ _ _ _
  | lweInto f key out msg => exact localE_encryptLwe _ _ _ _
  | lweZero f key => exact localE_encryptLwe _ _ _ _
  | lweVec f key msgs => exact localE_encryptLweList _ _ _ _ _
  | lweVecInto f key out msgs => exact localE_encryptLweList _ _ _ _ _
  | lweVecZero f key count => exact localE_zeroEncryptVec _ _ _
  | publicKey f key count => exact localE_zeroEncryptVec _ _ _
  | parLweVecZero f key count sched => exact localE_parEncryptLweList _ _ _ _ _ _
  | parPublicKey f key count sched => exact localE_parEncryptLweList _ _ _ _ _ _
  | glwe f key msg => exact localE_encryptGlwe _ _ _ _ _
  | glweInto f key out msg => exact localE_encryptGlwe _ _ _ _ _
  | glweZero f key => exact localE_encryptZeroGlwe _ _ _ _
  | glweVec f key msgs => exact localE_encryptGlweList _ _ _ _ _ _
  | glweVecInto f key out msgs => exact localE_encryptGlweList _ _ _ _ _ _
  | glweVecZero f key count => exact localE_encryptZeroGlweList _ _ _ _ _
  | ggsw f key msg level baseLog => exact localE_encryptGgsw _ _ _ _ _ _ _
  | ggswInto f key out msg => exact localE_encryptGgsw _ _ _ _ _ _ _
  | bsk f lweKey key baseLog level => exact localE_fillBsk _ _ _ _ _ _ _ _
  | parBsk f lweKey key baseLog level s1 s2 s3 => exact localE_parFillBsk _ _ _ _ _ _ _ _ _ _ _
  | ksk f inKey outKey level baseLog => exact localE_fillKeyswitchKey _ _ _ _ _ _ _
  | pksk f inKey key level baseLog => exact localE_fillPackingKey _ _ _ _ _ _ _ _
  | pfpksk f inKey key level baseLog fone P => exact localE_parFillPrivateKey _ _ _ _ _ _ _ _ _ _ _
  | cbs f inKey key baseLog level => exact localE_parFillCbsKeys _ _ _ _ _ _ _ _ _ _ _ _
  | parCbs f inKey key baseLog level s1 s2 => exact localE_parFillCbsKeys _ _ _ _ _ _ _ _ _ _ _ _

end Verif.Session
