import Verif.Proofs.Ops
import Verif.Props.History
import Verif.Spec.Static
/-
No stale pixels: C51.
-/
set_option linter.unusedSectionVars false
set_option autoImplicit false
namespace Mlx.Props
open Mlx Mlx.Spec Mlx.Proofs F32Ops
variable {F σ ER EW ε : Type} [F32Ops F]

theorem applyValid_congr {α : Type} (f : α → F → F) (dest : List F) (items items' : List α) (valid : List Bool)
    (h : ∀ i : Nat, valid[i]? = some true → items[i]? = items'[i]?) :
    applyValid f dest items valid = applyValid f dest items' valid := by
  apply List.ext_getElem?
  intro i
  rw [applyValid_get, applyValid_get]
  cases hv : valid[i]? with
  | none => cases items[i]? <;> cases items'[i]? <;> rfl
  | some b =>
    cases b with
    | false => cases items[i]? <;> cases items'[i]? <;> rfl
    | true => rw [h i hv]

theorem temps_congr (m : Mode) (c : Calib F) (em : F) (tR : Option F) (rc : F) (px px' : List Byte) (ram : RamData)
    (s : Subpage) (a : AccessPattern) (valid : List Bool) (dest : List F)
    (h : ∀ i : Nat, valid[i]? = some true → SameBytes px px' i) :
    rawPixelsToTemperatures (ε := ε) m c em tR rc px ram s a valid dest =
      rawPixelsToTemperatures m c em tR rc px' ram s a valid dest := by
  unfold rawPixelsToTemperatures
  cases CommonIrData.new (ε := ε) m rc em c ram with
  | err e => rfl
  | panic => rfl
  | ok common =>
  simp only [Res.ok_bind]
  cases idx (ε := ε) c.kSTo c.cam.basicRange with
  | err e => rfl
  | panic => rfl
  | ok k =>
  simp only [Res.ok_bind, Res.ok.injEq, Prod.mk.injEq, true_and]
  apply applyValid_congr
  intro i hv
  simp only [getElem?_zip', pixelWords_eq, (h i hv).1, (h i hv).2]

theorem raw_congr (m : Mode) (c : Calib F) (em rc : F) (px px' : List Byte) (ram : RamData)
    (s : Subpage) (a : AccessPattern) (valid : List Bool) (dest : List F)
    (h : ∀ i : Nat, valid[i]? = some true → SameBytes px px' i) :
    rawPixelsToIrData (ε := ε) m c em rc px ram s a valid dest =
      rawPixelsToIrData m c em rc px' ram s a valid dest := by
  unfold rawPixelsToIrData
  cases CommonIrData.new (ε := ε) m rc em c ram with
  | err e => rfl
  | panic => rfl
  | ok common =>
  simp only [Res.ok_bind, Res.ok.injEq, Prod.mk.injEq, true_and]
  apply applyValid_congr
  intro i hv
  simp only [getElem?_zip', pixelWords_eq, (h i hv).1, (h i hv).2]

theorem blind_readRanges {b : Bus σ ER EW} (hb : BufferBlind b) (addr : Byte) (rs : List PixelRange) (s : σ)
    (buf buf' : List Byte) (hl : buf.length = buf'.length) :
    (readRanges b addr rs s buf).1 = (readRanges b addr rs s buf').1 ∧
    (readRanges b addr rs s buf).2.2 = (readRanges b addr rs s buf').2.2 ∧
    ((readRanges b addr rs s buf).2.2 = .ok () →
      ∀ j : Nat, (∃ r ∈ rs, InRange r j) ∨ buf[j]? = buf'[j]? →
        (readRanges b addr rs s buf).2.1[j]? = (readRanges b addr rs s buf').2.1[j]?) := by
  induction rs generalizing s buf buf' with
  | nil =>
    refine ⟨rfl, rfl, fun _ j hj => ?_⟩
    rcases hj with ⟨r, hr, _⟩ | hj
    · cases hr
    · exact hj
  | cons r rs ih =>
    unfold readRanges
    by_cases hfit : r.bufferOffset + r.length ≤ buf.length
    · rw [if_pos hfit, if_pos (by omega)]
      have hsub : ((buf.drop r.bufferOffset).take r.length).length =
          ((buf'.drop r.bufferOffset).take r.length).length := by
        rw [List.length_take, List.length_drop, List.length_take, List.length_drop]; omega
      have hlen := b.length_eq s addr (toBe (BitVec.ofNat 16 r.startAddress))
        ((buf.drop r.bufferOffset).take r.length)
      rw [List.length_take, List.length_drop] at hlen
      have hlen' := b.length_eq s addr (toBe (BitVec.ofNat 16 r.startAddress))
        ((buf'.drop r.bufferOffset).take r.length)
      rw [List.length_take, List.length_drop] at hlen'
      obtain ⟨h1, h2, h3⟩ := hb s addr (toBe (BitVec.ofNat 16 r.startAddress)) _ _ hsub
      generalize b.writeRead s addr (toBe (BitVec.ofNat 16 r.startAddress))
        ((buf.drop r.bufferOffset).take r.length) = q at h1 h2 h3 hlen ⊢
      generalize b.writeRead s addr (toBe (BitVec.ofNat 16 r.startAddress))
        ((buf'.drop r.bufferOffset).take r.length) = q' at h1 h2 h3 hlen' ⊢
      obtain ⟨s1, sub, e⟩ := q
      obtain ⟨s1', sub', e'⟩ := q'
      simp only at h1 h2 h3 hlen hlen' ⊢
      subst h1 h2
      cases e with
      | some e => exact ⟨rfl, rfl, fun hc => nomatch hc⟩
      | none =>
        have hsubeq := h3 rfl
        subst hsubeq
        simp only
        have hchunk : sub.length = r.length := by omega
        have e1 : buf.take r.bufferOffset ++ sub ++ buf.drop (r.bufferOffset + r.length) =
            splice buf r.bufferOffset sub := by unfold splice; rw [hchunk]
        have e2 : buf'.take r.bufferOffset ++ sub ++ buf'.drop (r.bufferOffset + r.length) =
            splice buf' r.bufferOffset sub := by unfold splice; rw [hchunk]
        rw [e1, e2]
        have hsl : (splice buf r.bufferOffset sub).length = buf.length := splice_length _ _ _ (by omega)
        have hsl' : (splice buf' r.bufferOffset sub).length = buf'.length := splice_length _ _ _ (by omega)
        obtain ⟨i1, i2, i3⟩ := ih s1 (splice buf r.bufferOffset sub) (splice buf' r.bufferOffset sub) (by omega)
        refine ⟨i1, i2, fun hc j hj => i3 hc j ?_⟩
        by_cases hex : ∃ r' ∈ rs, InRange r' j
        · exact Or.inl hex
        · refine Or.inr ?_
          rw [splice_get _ _ _ (by omega), splice_get _ _ _ (by omega)]
          by_cases hin : r.bufferOffset ≤ j ∧ j < r.bufferOffset + sub.length
          · rw [if_pos hin, if_pos hin]
          · rw [if_neg hin, if_neg hin]
            rcases hj with ⟨r', hr', hin'⟩ | hj
            · rcases List.mem_cons.1 hr' with rfl | hr'
              · exfalso; apply hin; rw [hchunk]; exact hin'
              · exact absurd ⟨r', hr', hin'⟩ hex
            · exact hj
    · rw [if_neg hfit, if_neg (by omega)]
      exact ⟨rfl, rfl, fun hc => nomatch hc⟩

/-- Every selected pixel is covered by a range. -/
theorem selected_covered {env : Env σ ER EW} {d : Driver F σ} (hs : Supported env d) (sp : Subpage)
    (rs : List PixelRange) (hrs : d.calib.cam.collectRanges env.mode sp d.accessPattern env.height = .ok rs)
    (i : Nat) (hi : (d.calib.cam.pixelsInSubpage sp d.accessPattern)[i]? = some true) :
    ∃ r ∈ rs, Fills r i := by
  have hlen : i < (d.calib.cam.pixelsInSubpage sp d.accessPattern).length := (List.getElem?_eq_some_iff.1 hi).1
  rw [hs.height] at hrs
  rcases hs.cam with hc | hc
  · obtain ⟨rs', h1, _, _, _, h3, _⟩ := C14_mlx90640_ram_ranges env.mode sp d.accessPattern
    rw [hc] at hrs hlen hi
    rw [h1] at hrs
    cases hrs
    rw [(C12_mlx90640_subpage_partition d.accessPattern).1] at hlen
    exact h3 i hlen hi
  · obtain ⟨rs', h1, _, _, _, h3, _⟩ := C15_mlx90641_ram_ranges env.mode sp d.accessPattern
    rw [hc] at hrs hlen
    rw [h1] at hrs
    cases hrs
    refine h3 i ?_
    rw [(C13_mlx90641_full_subpages sp d.accessPattern).1] at hlen
    exact hlen

theorem blind_readRam {env : Env σ ER EW} {d d' : Driver F σ} (hs : Supported env d) (hb : BufferBlind env.bus)
    (h : SameButPixels d d') (sp : Subpage) :
    SameButPixels (Driver.readRam env sp d).1 (Driver.readRam env sp d').1 ∧
    (Driver.readRam env sp d).2 = (Driver.readRam env sp d').2 ∧
    (∀ ram, (Driver.readRam env sp d).2 = .ok ram →
      ∀ i : Nat, (d.calib.cam.pixelsInSubpage sp d.accessPattern)[i]? = some true →
        SameBytes (Driver.readRam env sp d).1.pixelBuf (Driver.readRam env sp d').1.pixelBuf i) := by
  obtain ⟨h1, h2⟩ := h
  generalize d'.pixelBuf = buf' at h1 h2
  subst h1
  obtain ⟨rs, hrs, _⟩ := supported_ranges hs sp d.accessPattern
  have hk := readRam_keeps env sp d
  have hk' := readRam_keeps env sp { d with pixelBuf := buf' }
  have hcov := selected_covered hs sp rs hrs
  obtain ⟨b1, b2, b3⟩ := blind_readRanges hb d.addr rs d.bus d.pixelBuf buf' h2
  revert hk hk'
  unfold Driver.readRam Mlx.readRam
  simp only
  rw [hrs]
  simp only
  generalize readRanges env.bus d.addr rs d.bus d.pixelBuf = q at b1 b2 b3 ⊢
  generalize readRanges env.bus d.addr rs d.bus buf' = q' at b1 b2 b3 ⊢
  obtain ⟨s1, px, r⟩ := q
  obtain ⟨s1', px', r'⟩ := q'
  simp only at b1 b2 b3
  subst b1 b2
  cases r with
  | err e =>
    intro hk hk'
    exact ⟨⟨rfl, hk.2.trans (h2.trans hk'.2.symm)⟩, rfl, fun _ hc => nomatch hc⟩
  | panic =>
    intro hk hk'
    exact ⟨⟨rfl, hk.2.trans (h2.trans hk'.2.symm)⟩, rfl, fun _ hc => nomatch hc⟩
  | ok u =>
    intro hk hk'
    refine ⟨⟨rfl, hk.2.trans (h2.trans hk'.2.symm)⟩, rfl, fun ram _ i hi => ?_⟩
    obtain ⟨r, hr, hf⟩ := hcov i hi
    unfold Fills at hf
    constructor
    · exact b3 rfl _ (Or.inl ⟨r, hr, by unfold InRange; omega⟩)
    · exact b3 rfl _ (Or.inl ⟨r, hr, by unfold InRange; omega⟩)

theorem blind_image {env : Env σ ER EW} {d d' : Driver F σ} (hs : Supported env d) (hb : BufferBlind env.bus)
    (h : SameButPixels d d') (sp : Subpage) (dest : List F)
    (conv : Driver F σ → List Byte → RamData → Res (Err ER EW) (F × List F))
    (hconv : ∀ (d d' : Driver F σ) px px' ram, SameButPixels d d' →
      (∀ i : Nat, (d.calib.cam.pixelsInSubpage sp d.accessPattern)[i]? = some true → SameBytes px px' i) →
      conv d px ram = conv d' px' ram) :
    SameImage (imageWith env sp dest d conv) (imageWith env sp dest d' conv) := by
  obtain ⟨h1, h2, h3⟩ := blind_readRam hs hb h sp
  have hk := (readRam_keeps env sp d).1
  unfold imageWith
  generalize Driver.readRam env sp d = q at h1 h2 h3 hk ⊢
  generalize Driver.readRam env sp d' = q' at h1 h2 h3 ⊢
  obtain ⟨d1, r⟩ := q
  obtain ⟨d1', r'⟩ := q'
  simp only at h1 h2 h3 hk
  subst h2
  cases r with
  | err e => exact ⟨h1, rfl⟩
  | panic => exact ⟨h1, rfl⟩
  | ok ram =>
    have hc : d1.calib = d.calib ∧ d1.accessPattern = d.accessPattern := by rw [hk]; exact ⟨rfl, rfl⟩
    have := hconv d1 d1' d1.pixelBuf d1'.pixelBuf ram h1 (by
      rw [hc.1, hc.2]
      exact h3 ram rfl)
    simp only
    rw [this]
    cases conv d1' d1'.pixelBuf ram with
    | err e => exact ⟨h1, rfl⟩
    | panic => exact ⟨h1, rfl⟩
    | ok v =>
      refine ⟨⟨?_, h1.2⟩, rfl⟩
      obtain ⟨h1, _⟩ := h1
      generalize d1'.pixelBuf = buf at h1
      subst h1
      rfl

theorem toTemperatures_blind (m : Mode) (sp : Subpage) (dest : List F) (d d' : Driver F σ) (px px' : List Byte)
    (ram : RamData) (h : SameButPixels d d')
    (hv : ∀ i : Nat, (d.calib.cam.pixelsInSubpage sp d.accessPattern)[i]? = some true → SameBytes px px' i) :
    toTemperatures (ER := ER) (EW := EW) m d sp dest px ram = toTemperatures m d' sp dest px' ram := by
  obtain ⟨h1, _⟩ := h
  generalize d'.pixelBuf = buf at h1
  subst h1
  exact temps_congr _ _ _ _ _ _ _ _ _ _ _ _ hv

theorem toRawImage_blind (m : Mode) (sp : Subpage) (dest : List F) (d d' : Driver F σ) (px px' : List Byte)
    (ram : RamData) (h : SameButPixels d d')
    (hv : ∀ i : Nat, (d.calib.cam.pixelsInSubpage sp d.accessPattern)[i]? = some true → SameBytes px px' i) :
    toRawImage (ER := ER) (EW := EW) m d sp dest px ram = toRawImage m d' sp dest px' ram := by
  obtain ⟨h1, _⟩ := h
  generalize d'.pixelBuf = buf at h1
  subst h1
  exact raw_congr _ _ _ _ _ _ _ _ _ _ _ hv

/-- **C51 (one call).** For both cameras, both access patterns and any bus whose reads do not depend on the old
contents of the caller's buffer: two drivers that differ only in what their pixel buffers hold (left over from
earlier frames) produce the same image, ambient temperature, outcome and bus state with every image method. -/
theorem C51_no_stale_pixels (env : Env σ ER EW) (hb : BufferBlind env.bus) (d d' : Driver F σ)
    (hs : Supported env d) (h : SameButPixels d d') (sp : Subpage) (dest : List F) :
    SameImage (Driver.generateRawImageSubpageTo env sp dest d) (Driver.generateRawImageSubpageTo env sp dest d') ∧
    SameImage (Driver.generateImageSubpageTo env sp dest d) (Driver.generateImageSubpageTo env sp dest d') ∧
    SameImage (Driver.generateImageTo env dest d) (Driver.generateImageTo env dest d') ∧
    SameImage (Driver.generateImageIfReady env dest d) (Driver.generateImageIfReady env dest d') := by
  have himg : ∀ (d d' : Driver F σ), Supported env d → SameButPixels d d' → ∀ sp,
      SameImage (Driver.generateImageSubpageTo env sp dest d) (Driver.generateImageSubpageTo env sp dest d') := by
    intro d d' hs h sp
    rw [imageSubpage_eq, imageSubpage_eq]
    exact blind_image hs hb h sp dest _ (fun d d' px px' ram h hv => toTemperatures_blind _ _ _ _ _ _ _ _ h hv)
  obtain ⟨h1, h2⟩ := h
  generalize d'.pixelBuf = buf at h1 h2
  subst h1
  have h : SameButPixels d { d with pixelBuf := buf } := ⟨rfl, h2⟩
  have hnext : ∀ s : σ, SameButPixels { d with bus := s } { d with pixelBuf := buf, bus := s } :=
    fun s => ⟨rfl, h2⟩
  refine ⟨?_, himg d _ hs h sp, ?_, ?_⟩
  · rw [rawImageSubpage_eq, rawImageSubpage_eq]
    exact blind_image hs hb h sp dest _ (fun d d' px px' ram h hv => toRawImage_blind _ _ _ _ _ _ _ _ h hv)
  · rw [generateImageTo_eq, generateImageTo_eq]
    simp only
    generalize regRead env.bus d.bus d.addr 0x8000#16 = q
    obtain ⟨s, e | w⟩ := q
    · exact ⟨hnext s, rfl⟩
    · exact himg { d with bus := s } { d with pixelBuf := buf, bus := s } ⟨hs.1, hs.2, hs.3⟩ (hnext s) _
  · rw [ifReady_eq, ifReady_eq]
    simp only
    generalize regRead env.bus d.bus d.addr 0x8000#16 = q
    obtain ⟨s, e | w⟩ := q
    · exact ⟨hnext s, rfl⟩
    · simp only
      by_cases h3 : w.getLsbD 3 = true
      · rw [if_pos h3, if_pos h3]
        have := himg { d with bus := s } { d with pixelBuf := buf, bus := s } ⟨hs.1, hs.2, hs.3⟩ (hnext s)
          (if w.getLsbD 0 then .one else .zero)
        generalize Driver.generateImageSubpageTo env (if w.getLsbD 0 then .one else .zero) dest
          { d with bus := s } = q at this ⊢
        generalize Driver.generateImageSubpageTo env (if w.getLsbD 0 then .one else .zero) dest
          { d with pixelBuf := buf, bus := s } = q' at this ⊢
        obtain ⟨d1, dest1, r⟩ := q
        obtain ⟨d1', dest1', r'⟩ := q'
        obtain ⟨h1, h2⟩ := this
        simp only [Prod.mk.injEq] at h1 h2
        obtain ⟨h2, h2'⟩ := h2
        subst h2 h2'
        have hd1 : d1'.bus = d1.bus ∧ d1'.addr = d1.addr := by rw [h1.1]; exact ⟨rfl, rfl⟩
        cases r with
        | err e => exact ⟨h1, rfl⟩
        | panic => exact ⟨h1, rfl⟩
        | ok u =>
          simp only [hd1.1, hd1.2]
          refine ⟨⟨?_, h1.2⟩, rfl⟩
          obtain ⟨h1, _⟩ := h1
          generalize d1'.pixelBuf = buf at h1
          subst h1
          rfl
      · rw [if_neg h3, if_neg h3]
        exact ⟨hnext s, rfl⟩

/-- **C51 (histories).** The same after any history of calls: every later image and outcome is the same, whatever
the pixel buffer held at the start. -/
theorem C51_histories (env : Env σ ER EW) (hb : BufferBlind env.bus) (d d' : Driver F σ)
    (hs : Supported env d) (h : SameButPixels d d') (ops : List (Op F)) (op : Op F) :
    SameButPixels (runOps env ops d) (runOps env ops d') ∧
    (op.exec env (runOps env ops d)).2 = (op.exec env (runOps env ops d')).2 := by
  have step : ∀ (op : Op F) (d d' : Driver F σ), Supported env d → SameButPixels d d' →
      SameButPixels (op.exec env d).1 (op.exec env d').1 ∧ (op.exec env d).2 = (op.exec env d').2 := by
    intro op d d' hs h
    have himg := fun sp dest => C51_no_stale_pixels env hb d d' hs h sp dest
    have hd : { d with pixelBuf := d'.pixelBuf } = d' := h.1.symm
    have hl := h.2
    generalize d'.pixelBuf = buf at hd hl
    subst hd
    have key : ∀ {α : Type} (r r' : Driver.ImageResult F σ ER EW α), SameImage r r' →
        SameButPixels (discardImage r).1 (discardImage r').1 ∧ (discardImage r).2 = (discardImage r').2 := by
      intro α r r' hr
      obtain ⟨r1, r2, r3⟩ := r
      obtain ⟨r1', r2', r3'⟩ := r'
      obtain ⟨hr1, hr2⟩ := hr
      simp only [Prod.mk.injEq] at hr2
      obtain ⟨_, rfl⟩ := hr2
      exact ⟨hr1, rfl⟩
    refine op_cases env (P := fun op => SameButPixels (op.exec env d).1 (op.exec env { d with pixelBuf := buf }).1 ∧
      (op.exec env d).2 = (op.exec env { d with pixelBuf := buf }).2) ?_ ?_ ?_ ?_ ?_ ?_ ?_ ?_ ?_ ?_ ?_ ?_ ?_ op
    · intro op f hf he _ _ _ _
      rw [he, he]
      unfold discard
      rw [driverGet_eq, driverGet_eq]
      cases (regRead env.bus d.bus d.addr 0x800D#16).2 <;> exact ⟨⟨rfl, hl⟩, rfl⟩
    · intro op f hf v he _ _ _ _
      rw [he, he]
      unfold discard
      rw [driverSet_eq, driverSet_eq]
      cases (regRead env.bus d.bus d.addr 0x800D#16).2 with
      | error e => exact ⟨⟨rfl, hl⟩, rfl⟩
      | ok w =>
        simp only
        split <;> exact ⟨⟨rfl, hl⟩, rfl⟩
    · intro op he _ _ _ _
      rw [he, he]
      exact ⟨⟨rfl, hl⟩, rfl⟩
    · intro v
      show SameButPixels (Driver.setOverwriteEnabled env v d).1 (Driver.setOverwriteEnabled env v _).1 ∧
        (discard (Driver.setOverwriteEnabled env v d)).2 = (discard (Driver.setOverwriteEnabled env v _)).2
      unfold discard
      rw [setOverwrite_eq, setOverwrite_eq]
      cases (regRead env.bus d.bus d.addr 0x8000#16).2 with
      | error e => exact ⟨⟨rfl, hl⟩, rfl⟩
      | ok w =>
        simp only
        split <;> exact ⟨⟨rfl, hl⟩, rfl⟩
    · show SameButPixels (Driver.resetDataAvailable env d).1 (Driver.resetDataAvailable env _).1 ∧
        (discard (Driver.resetDataAvailable env d)).2 = (discard (Driver.resetDataAvailable env _)).2
      unfold discard
      rw [resetDataAvailable_eq, resetDataAvailable_eq]
      cases (regRead env.bus d.bus d.addr 0x8000#16).2 <;> exact ⟨⟨rfl, hl⟩, rfl⟩
    · intro v; exact ⟨⟨rfl, hl⟩, rfl⟩
    · exact ⟨⟨rfl, hl⟩, rfl⟩
    · intro v; exact ⟨⟨rfl, hl⟩, rfl⟩
    · intro sp dest; exact key _ _ (himg sp dest).1
    · intro sp dest; exact key _ _ (himg sp dest).2.1
    · intro dest; exact key _ _ (himg .zero dest).2.2.1
    · intro dest; exact key _ _ (himg .zero dest).2.2.2
    · intro fuel
      show SameButPixels (Driver.synchronize env fuel d).1 (Driver.synchronize env fuel _).1 ∧
        (discard (Driver.synchronize env fuel d)).2 = (discard (Driver.synchronize env fuel _)).2
      have hpoll : ∀ (n : Nat) (e : Driver F σ),
          (Driver.pollStatus env n { e with pixelBuf := buf }).1.bus = (Driver.pollStatus env n e).1.bus ∧
          (Driver.pollStatus env n { e with pixelBuf := buf }).2 = (Driver.pollStatus env n e).2 := by
        intro n
        induction n with
        | zero => intro e; exact ⟨rfl, rfl⟩
        | succ n ih =>
          intro e
          unfold Driver.pollStatus
          rw [dm_bind, dm_bind, statusRegister_eq, statusRegister_eq]
          simp only
          cases (regRead env.bus e.bus e.addr 0x8000#16).2 with
          | error e => exact ⟨rfl, rfl⟩
          | ok w =>
            simp only
            split
            · exact ⟨rfl, rfl⟩
            · exact ih { e with bus := (regRead env.bus e.bus e.addr 0x8000#16).1 }
      unfold discard
      rw [synchronize_eq, synchronize_eq]
      simp only
      cases (regRead env.bus d.bus d.addr 0x8000#16).2 with
      | error e => exact ⟨⟨rfl, hl⟩, rfl⟩
      | ok w =>
        simp only
        cases (regWrite env.bus (regRead env.bus d.bus d.addr 0x8000#16).1 d.addr 0x8000#16 (syncWord w)).2 with
        | some e => exact ⟨⟨rfl, hl⟩, rfl⟩
        | none =>
          simp only
          generalize (regWrite env.bus (regRead env.bus d.bus d.addr 0x8000#16).1 d.addr 0x8000#16
            (syncWord w)).1 = s'
          have hp := hpoll fuel { d with bus := s' }
          have k1 := pollStatus_keeps env fuel { d with bus := s' }
          have k2 := pollStatus_keeps env fuel { d with pixelBuf := buf, bus := s' }
          simp only at hp k1 k2
          generalize Driver.pollStatus env fuel { d with bus := s' } = q at hp k1 ⊢
          generalize Driver.pollStatus env fuel { d with pixelBuf := buf, bus := s' } = q' at hp k2 ⊢
          obtain ⟨d1, r⟩ := q
          obtain ⟨d1', r'⟩ := q'
          simp only at hp k1 k2
          obtain ⟨hp1, rfl⟩ := hp
          refine ⟨?_, rfl⟩
          show SameButPixels d1 d1'
          rw [k1, k2, hp1]
          exact ⟨rfl, hl⟩
  have hist : ∀ (ops : List (Op F)) (d d' : Driver F σ), Supported env d → SameButPixels d d' →
      SameButPixels (runOps env ops d) (runOps env ops d') := by
    intro ops
    induction ops with
    | nil => intro d d' _ h; exact h
    | cons op ops ih =>
      intro d d' hs h
      exact ih _ _ (exec_supported hs op).1 (step op d d' hs h).1
  have h1 := hist ops d d' hs h
  exact ⟨h1, (step op _ _ (runOps_supported hs ops).1 h1).2⟩

/-- The simple camera's bus does not look at the old buffer. -/
theorem simple_blind : BufferBlind simpleBus := by
  intro s addr out buf buf' hl
  simp only [simpleBus]
  split
  · split
    · exact ⟨rfl, rfl, fun _ => by rw [hl]⟩
    · exact ⟨rfl, rfl, fun h => nomatch h⟩
  · exact ⟨rfl, rfl, fun h => nomatch h⟩

example : SameButPixels (toyDriver Mlx90640.cam 768 (toyCamera 9))
    { toyDriver Mlx90640.cam 768 (toyCamera 9) with pixelBuf := List.replicate (2 * 768) 0xA5#8 } :=
  ⟨rfl, by simp only [toyDriver, List.length_replicate]⟩

end Mlx.Props
