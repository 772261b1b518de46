import Verif.Scratch.Lemmas
/-
Helpers: what each function announces is enough for it.
-/
namespace Verif.Scratch

open Verif Verif.Csprng Verif.Engine

theorem forward_enough {fft : Fft} (hp : fft.req.Pow2) : Enough (forward fft) fft.req := enough_hold hp

theorem backward_enough {fft : Fft} (hp : fft.req.Pow2) {r : Req} (h : backwardScratch fft = some r) {n : Nat}
    (hn : n ≤ fft.polySize / 2) : Enough (backward fft n) r := by
  simp only [backwardScratch, Option.bind_eq_bind, Option.bind_eq_some_iff] at h
  obtain ⟨s, hs, h⟩ := h
  exact enough_and (enough_hold hp) hs hn (.inr h)

theorem externalProduct_enough {fft : Fft} (hp : fft.req.Pow2) {sz g N : Nat} {r : Req}
    (h : externalProductScratch sz g N fft = some r) (hN : N ≤ fft.polySize) (level : Nat) :
    Enough (externalProduct fft sz g N level) r := by
  simp only [externalProductScratch, forwardScratch, Option.bind_eq_bind, Option.bind_eq_some_iff,
    Option.some.injEq] at h
  obtain ⟨std, hstd, four, hfour, single, hsingle, s3, rfl, s2, hs2, s1, hs1, s0', hs0', bw, hbw, s0, hs0, h⟩ := h
  have e2 : Enough (.alloc c64 (N / 2) cacheline (forward fft)) s2 :=
    enough_and (forward_enough hp) hsingle le_rfl (.inr hs2)
  have e1 : Enough (.alloc sz (g * N) cacheline <| .loop g <| .alloc c64 (N / 2) cacheline (forward fft)) s1 :=
    enough_and (enough_loop e2) hstd le_rfl (.inr hs1)
  have e0 : Enough (.alloc sz (g * N) cacheline <| .loop level <| .alloc sz (g * N) cacheline <| .loop g <|
      .alloc c64 (N / 2) cacheline (forward fft)) s0' :=
    enough_and (enough_loop e1) hstd le_rfl (.inr hs0')
  have eb : Enough (backward fft (N / 2)) bw := backward_enough hp hbw (Nat.div_le_div_right hN)
  obtain ⟨p0, hb0⟩ := tryAnyOf_bound hs0 (by
    intro q hq
    simp only [List.mem_cons, List.not_mem_nil, or_false] at hq
    rcases hq with rfl | rfl
    · exact e0.2.1
    · exact eb.2.1)
  refine enough_and (enough_both (e0.mono p0 fun x => hb0 x _ (by simp)) ?_) hfour ?_ (.inr h)
  · exact enough_ite (enough_skip p0) (enough_loop (eb.mono p0 fun x => hb0 x _ (by simp)))
  · rw [Nat.le_div_iff_mul_le (by decide)]
    calc N / 2 * g * 2 = g * (N / 2 * 2) := by ring
      _ ≤ g * N := Nat.mul_le_mul_left _ (Nat.div_mul_le_self _ _)

theorem blindRotate_enough {fft : Fft} (hp : fft.req.Pow2) {sz g N : Nat} {r : Req}
    (h : blindRotateScratch sz g N fft = some r) (hN : N ≤ fft.polySize) (level : Nat) (mask : List Bool) :
    Enough (blindRotate fft sz g N level mask) r := by
  simp only [blindRotateScratch, cmuxScratch, Option.bind_eq_bind, Option.bind_eq_some_iff] at h
  obtain ⟨std, hstd, ep, hep, h⟩ := h
  have e : Enough (.alloc sz (g * N) cacheline (cmux fft sz g N level)) r :=
    enough_and (externalProduct_enough hp hep hN level) hstd le_rfl (.inl h)
  refine enough_seq e.2.1 fun u hu => ?_
  obtain ⟨b, -, rfl⟩ := List.mem_map.1 hu
  exact enough_ite e (enough_skip e.2.1)

theorem bootstrap_enough {fft : Fft} (hp : fft.req.Pow2) {sz g N : Nat} {r : Req}
    (h : bootstrapScratch sz g N fft = some r) (hN : N ≤ fft.polySize) (level : Nat) (mask : List Bool) :
    Enough (bootstrap fft sz g N level mask) r := by
  simp only [bootstrapScratch, Option.bind_eq_bind, Option.bind_eq_some_iff] at h
  obtain ⟨br, hbr, std, hstd, h⟩ := h
  exact enough_and (blindRotate_enough hp hbr hN level mask) hstd le_rfl (.inr h)

theorem extractBits_enough {fft : Fft} (hp : fft.req.Pow2) {sz lweDim kskOutDim g N : Nat} {r : Req}
    (h : extractBitsScratch sz lweDim kskOutDim g N fft = some r) (hN : N ≤ fft.polySize) (level bits : Nat)
    (masks : List (List Bool)) : Enough (extractBits fft sz lweDim kskOutDim g N level bits masks) r := by
  simp only [extractBitsScratch, Option.bind_eq_bind, Option.bind_eq_some_iff] at h
  obtain ⟨lin, hlin, ks, hks, acc, hacc, pbs, hpbs, bs, hbs, a1, h1, a2, h2, a3, h3, a4, h4, h⟩ := h
  have ebs := fun m => bootstrap_enough hp hbs hN level m
  have pl := pow2_new hlin; have pk := pow2_new hks; have pa := pow2_new hacc; have pp := pow2_new hpbs
  obtain ⟨p4, b4⟩ := tryAnyOf_bound h4 (by
    intro q hq
    simp only [List.mem_cons, List.not_mem_nil, or_false] at hq
    rcases hq with rfl | rfl
    · exact pl
    · exact (ebs []).2.1)
  have p1 := tryAnd_pow2 h1 pl pk
  have p2 := tryAnd_pow2 h2 p1 pa
  have p3 := tryAnd_pow2 h3 p2 pp
  have pr := tryAnd_pow2 h p3 p4
  have eloop : Enough (.seq ((if bits = 0 then masks else masks.take bits).zipIdx.map fun (mask, i) =>
      .both (.alloc sz (lweDim + 1) cacheline .skip)
        (if i + 1 = bits then .skip else bootstrap fft sz g N level mask))) a4 := by
    refine enough_seq p4 fun u hu => ?_
    obtain ⟨⟨m, i⟩, -, rfl⟩ := List.mem_map.1 hu
    refine enough_both ?_ (enough_ite (enough_skip p4) ((ebs m).mono p4 fun x => b4 x _ (by simp)))
    refine enough_alloc (s := lin) (r := ⟨0, 1⟩) (enough_skip pow2_one) pl ?_ ?_ p4 ?_
    · rw [tryNew_eq hlin]
    · rw [tryNew_eq hlin]
    · intro x; rw [bound_zero]; exact b4 x _ (by simp)
  -- the last address, from the inside
  obtain ⟨k1, k2, k3⟩ := eloop
  refine ⟨⟨by decide, by decide, by decide, by decide, k1⟩, pr, fun x => ?_⟩
  have el := tryNew_eq hlin; have ek := tryNew_eq hks; have ea := tryNew_eq hacc; have ep := tryNew_eq hpbs
  refine (k3 _).trans ?_
  rw [← el, ← ek, ← ea, ← ep]
  refine le_trans ?_ (tryAnd_bound h p3 p4 x)
  refine bound_mono p4.pos (le_trans ?_ (tryAnd_bound h3 p2 pp x))
  refine bound_mono pp.pos (le_trans ?_ (tryAnd_bound h2 p1 pa x))
  exact bound_mono pa.pos (tryAnd_bound h1 pl pk x)

theorem shift_enough {fft : Fft} (hp : fft.req.Pow2) {sz lweSize N g : Nat} {r : Req}
    (h : shiftScratch sz lweSize N g fft = some r) (hN : N ≤ fft.polySize) (level : Nat) (mask : List Bool) :
    Enough (shift fft sz lweSize g N level mask) r := by
  simp only [shiftScratch, Option.bind_eq_bind, Option.bind_eq_some_iff] at h
  obtain ⟨lin, hlin, acc, hacc, a1, h1, bs, hbs, h⟩ := h
  have ebs := bootstrap_enough hp hbs hN level mask
  have pl := pow2_new hlin; have pa := pow2_new hacc
  have p1 := tryAnd_pow2 h1 pl pa
  obtain ⟨k1, k2, k3⟩ := ebs
  refine ⟨⟨by decide, by decide, k1⟩, tryAnd_pow2 h p1 k2, fun x => ?_⟩
  have el := tryNew_eq hlin; have ea := tryNew_eq hacc
  refine (k3 _).trans ?_
  rw [← el, ← ea]
  refine le_trans ?_ (tryAnd_bound h p1 k2 x)
  exact bound_mono k2.pos (tryAnd_bound h1 pl pa x)

theorem circuitBootstrap_enough {fft : Fft} (hp : fft.req.Pow2) {sz lweSize outSize N g : Nat} {r : Req}
    (h : circuitBootstrapScratch sz lweSize outSize N g fft = some r) (hN : N ≤ fft.polySize) (level : Nat)
    (masks : List (List Bool)) : Enough (circuitBootstrap fft sz lweSize outSize g N level masks) r := by
  simp only [circuitBootstrapScratch, Option.bind_eq_bind, Option.bind_eq_some_iff] at h
  obtain ⟨out, hout, sh, hsh, h⟩ := h
  have es := fun m => shift_enough hp hsh hN level m
  refine enough_and (enough_seq (es []).2.1 fun u hu => ?_) hout le_rfl (.inl h)
  obtain ⟨m, -, rfl⟩ := List.mem_map.1 hu
  exact es m

theorem debugHold_enough {bld : Build} {r s : Req} (hr : r.Pow2) (hs : s.Pow2)
    (hb : ∀ x, bound r x ≤ bound s x) : Enough (debugHold bld (some r)) s := by
  cases bld
  · exact (enough_hold hr).mono hs hb
  · exact enough_skip hs

theorem cmuxTree_enough {fft : Fft} (hp : fft.req.Pow2) {sz N g layers : Nat} {r : Req}
    (h : cmuxTreeScratch sz N g layers fft = some r) (hN : N ≤ fft.polySize) (bld : Build) (level steps : Nat) :
    Enough (cmuxTree bld fft sz g N level layers steps) r := by
  have h0 := h
  simp only [cmuxTreeScratch, Option.bind_eq_bind, Option.bind_eq_some_iff] at h
  obtain ⟨t, ht, us, hus, ep, hep, h⟩ := h
  have eep := externalProduct_enough hp hep hN level
  have pt := pow2_new ht
  have pu : us.Pow2 := by rw [tryNew_eq hus]; exact ⟨3, rfl⟩
  obtain ⟨pr, hb⟩ := tryAllOf_bound h (by
    intro q hq
    simp only [List.mem_cons, List.not_mem_nil, or_false] at hq
    rcases hq with rfl | rfl | rfl | rfl | rfl
    · exact pt
    · exact pt
    · exact pu
    · exact pt
    · exact eep.2.1)
  unfold cmuxTree
  split
  · exact enough_skip pr
  · rename_i hl
    rw [h0]
    refine enough_both (debugHold_enough pr pr fun _ => le_rfl) ?_
    have et := tryNew_eq ht; have eu := tryNew_eq hus
    -- one step of the loop, at the end of t_fill
    have key : ∀ x, (Use.loop steps (.alloc sz (N * g) cacheline (externalProduct fft sz g N level))).top x ≤
        bound ep (bound t x) := by
      intro x
      have hone : (Use.alloc sz (N * g) cacheline (externalProduct fft sz g N level)).top x ≤ bound ep (bound t x) := by
        refine (eep.2.2 _).trans (bound_mono eep.2.1.pos ?_)
        have hle : sz * (N * g) ≤ sz * (N * g * layers) :=
          Nat.mul_le_mul_left _ (Nat.le_mul_of_pos_right _ (by omega))
        rw [et]; simp only [bound]; omega
      have hx : x ≤ bound ep (bound t x) :=
        (le_bound t x pt.pos).trans (le_bound ep _ eep.2.1.pos)
      unfold Use.loop Use.seq
      clear h0 hb
      induction steps with
      | zero => simpa [Use.top] using hx
      | succ n ih => simpa [List.replicate_succ, Use.top] using ⟨hone, ih⟩
    refine ⟨⟨by decide, by decide, by decide, ?_⟩, pr, fun x => ?_⟩
    · unfold Use.loop Use.seq
      clear key h0 hb
      induction steps with
      | zero => exact trivial
      | succ n ih => exact ⟨⟨by decide, eep.1⟩, ih⟩
    · refine (key _).trans ?_
      rw [← et, ← eu]
      exact hb x

theorem blindRotatePacking_enough {fft : Fft} (hp : fft.req.Pow2) {sz g N : Nat} {r : Req}
    (h : blindRotatePackingScratch sz g N fft = some r) (hN : N ≤ fft.polySize) (level count : Nat) :
    Enough (blindRotatePacking fft sz g N level count) r := by
  simp only [blindRotatePackingScratch, cmuxScratch, Option.bind_eq_bind, Option.bind_eq_some_iff] at h
  obtain ⟨t, ht, ep, hep, h⟩ := h
  have eep := externalProduct_enough hp hep hN level
  have pt := pow2_new ht
  obtain ⟨pr, hb⟩ := tryAllOf_bound h (by
    intro q hq
    simp only [List.mem_cons, List.not_mem_nil, or_false] at hq
    rcases hq with rfl | rfl
    · exact pt
    · exact eep.2.1)
  refine enough_loop (enough_alloc eep pt (by rw [tryNew_eq ht]) (by rw [tryNew_eq ht]) pr fun x => hb x)

theorem verticalPacking_enough {fft : Fft} (hp : fft.req.Pow2) {bld : Build} {sz g N lutCount ggswCount : Nat} {r : Req}
    (h : verticalPackingScratch bld sz g N lutCount ggswCount fft = some (some r)) (hN : N ≤ fft.polySize)
    (level steps : Nat) {u : Use} (hu : verticalPacking bld fft sz g N level lutCount ggswCount steps = some u) :
    Enough u r := by
  simp only [verticalPackingScratch, Option.map_eq_some_iff] at h
  obtain ⟨layers, hl, h⟩ := h
  simp only [verticalPacking, hl, Option.map_some, Option.some.injEq] at hu
  subst hu
  simp only [Option.bind_eq_bind, Option.bind_eq_some_iff] at h
  obtain ⟨res, hres, ro, hro, tr, htr, an, han, h⟩ := h
  have e1 := cmuxTree_enough hp htr hN bld level steps
  have e2 := blindRotatePacking_enough hp hro hN level (ggswCount - layers)
  obtain ⟨pa, ba⟩ := tryAnyOf_bound han (by
    intro q hq
    simp only [List.mem_cons, List.not_mem_nil, or_false] at hq
    rcases hq with rfl | rfl
    · exact e2.2.1
    · exact e1.2.1)
  have pres := pow2_new hres
  obtain ⟨pr, hb⟩ := tryAllOf_bound h (by
    intro q hq
    simp only [List.mem_cons, List.not_mem_nil, or_false] at hq
    rcases hq with rfl | rfl
    · exact pres
    · exact pa)
  exact enough_alloc
    (enough_both (e1.mono pa fun x => ba x _ (by simp)) (e2.mono pa fun x => ba x _ (by simp)))
    pres (by rw [tryNew_eq hres]) (by rw [tryNew_eq hres]) pr fun x => hb x

theorem mapM_mem {α β : Type} {f : α → Option β} : ∀ {l : List α} {bs : List β}, l.mapM f = some bs →
    ∀ b ∈ bs, ∃ a ∈ l, f a = some b := by
  intro l
  induction l with
  | nil => intro bs h; simp at h; subst h; simp
  | cons a l ih =>
    intro bs h
    simp only [List.mapM_cons, Option.bind_eq_bind, Option.bind_eq_some_iff, Option.pure_def, Option.some.injEq] at h
    obtain ⟨b, hb, bs', hbs', rfl⟩ := h
    intro c hc
    rcases List.mem_cons.1 hc with rfl | hc
    · exact ⟨a, by simp, hb⟩
    · obtain ⟨a', ha', h'⟩ := ih hbs' c hc
      exact ⟨a', by simp [ha'], h'⟩

theorem cbsVerticalPacking_enough {fft : Fft} (hp : fft.req.Pow2) {bld : Build}
    {sz inCount outCount lweSize lutCount levelCbs : Nat} {bsk : M.Bsk} {pfpksk : M.Pfpksk} {r : Req}
    (h : cbsVerticalPackingScratch bld sz inCount outCount lweSize lutCount (bsk.outDim + 1) pfpksk.outPolySize
      (bsk.glweDim + 1) levelCbs fft = some (some r))
    (hg : pfpksk.outGlweDim = bsk.glweDim) (hn : pfpksk.outPolySize = bsk.polySize) (hN : bsk.polySize ≤ fft.polySize)
    {masks : List (List (List Bool))} {steps : List Nat} {u : Use}
    (hu : cbsVerticalPacking bld fft sz inCount outCount lweSize lutCount levelCbs bsk pfpksk masks steps = some u) :
    Enough u r := by
  have h0 := h
  unfold cbsVerticalPackingScratch at h
  unfold cbsVerticalPacking at hu
  split at h
  · cases h
  rename_i hc
  simp only [if_neg hc, h0, Option.bind_eq_bind, Option.bind_eq_some_iff, Option.bind_some, Option.pure_def,
    Option.some.injEq] at hu
  obtain ⟨vps, hvps, rfl⟩ := hu
  simp only [Option.map_eq_some_iff] at h
  obtain ⟨vp, hvp, h⟩ := h
  simp only [Option.bind_eq_bind, Option.bind_eq_some_iff, fillWithForwardScratch, forwardScratch,
    Option.some.injEq] at h
  obtain ⟨li, hli, res, hres, cb, hcb, fw, rfl, vp', rfl, an, han, h⟩ := h
  rw [hn] at hli hres hcb hvp hvps ⊢
  rw [hg] at hvps ⊢
  have ecb := fun m => circuitBootstrap_enough hp hcb hN bsk.level m
  have pvp : vp'.Pow2 := by
    have h2 := hvp
    simp only [verticalPackingScratch, Option.map_eq_some_iff] at h2
    obtain ⟨layers, hl, h2⟩ := h2
    exact (verticalPacking_enough hp hvp hN levelCbs 0 (by simp [verticalPacking, hl]; rfl)).2.1
  obtain ⟨pa, ba⟩ := tryAnyOf_bound han (by
    intro q hq
    simp only [List.mem_cons, List.not_mem_nil, or_false] at hq
    rcases hq with rfl | rfl | rfl
    · exact (ecb []).2.1
    · exact hp
    · exact pvp)
  have pli := pow2_new hli; have pres := pow2_new hres
  obtain ⟨pr, hb⟩ := tryAllOf_bound h (by
    intro q hq
    simp only [List.mem_cons, List.not_mem_nil, or_false] at hq
    rcases hq with rfl | rfl | rfl
    · exact pli
    · exact pres
    · exact pa)
  refine enough_both (debugHold_enough pr pr fun _ => le_rfl) ?_
  have inner : Enough (.both
      (.seq ((masks.take inCount).map fun m =>
        .both (circuitBootstrap fft sz lweSize (bsk.outDim + 1) (bsk.glweDim + 1) bsk.polySize bsk.level m)
          (fillWithForward fft ((bsk.glweDim + 1) * (bsk.glweDim + 1) * levelCbs))))
      (.seq vps)) an := by
    refine enough_both (enough_seq pa fun v hv => ?_) (enough_seq pa fun v hv => ?_)
    · obtain ⟨m, -, rfl⟩ := List.mem_map.1 hv
      exact enough_both ((ecb m).mono pa fun x => ba x _ (by simp))
        ((enough_loop (forward_enough hp)).mono pa fun x => ba x _ (by simp))
    · obtain ⟨st, -, hst⟩ := mapM_mem hvps v hv
      exact (verticalPacking_enough hp hvp hN levelCbs st hst).mono pa fun x => ba x _ (by simp)
  obtain ⟨k1, k2, k3⟩ := inner
  refine ⟨⟨by decide, by decide, k1⟩, pr, fun x => ?_⟩
  refine (k3 _).trans ?_
  have eli := tryNew_eq hli; have eres := tryNew_eq hres
  rw [← eli, ← eres]
  exact hb x

/-- The memory of an engine is enough, wherever it is. -/
theorem engineCall_ne_short {announced : Option Req} {u : Use} (h : ∀ r, announced = some r → Enough u r) (addr : Nat) :
    engineCall announced u addr ≠ .short := by
  unfold engineCall
  split
  · simp
  · rename_i n hn
    simp only [Option.bind_eq_some_iff] at hn
    obtain ⟨r, hr, hn⟩ := hn
    have e := h r hr
    have en := checked_eq hn
    rw [if_pos]
    · simp
    · apply e.fits
      rw [canHold_iff e.2.1.pos]
      have := alignUp_lt addr e.2.1.pos
      unfold bound; omega

end Verif.Scratch
