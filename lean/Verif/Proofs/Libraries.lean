import Verif.Spec.Libraries
import Verif.Proofs.Access
/-
What does not depend on `powi` and `powf`.
-/
set_option linter.unusedSectionVars false
set_option autoImplicit false
namespace Mlx.Proofs
open Mlx Mlx.Spec
variable {F σ ER EW ε : Type}

section
variable (i j : F32Ops F) (h : SameBasics i j)
include h

theorem b_lit (q : Rat) : @F32Ops.lit F j q = @F32Ops.lit F i q := h.lit q
theorem b_ofInt (n : Int) : @F32Ops.ofInt F j n = @F32Ops.ofInt F i n := h.ofInt n
theorem b_add (x y : F) : @F32Ops.add F j x y = @F32Ops.add F i x y := h.add x y
theorem b_sub (x y : F) : @F32Ops.sub F j x y = @F32Ops.sub F i x y := h.sub x y
theorem b_mul (x y : F) : @F32Ops.mul F j x y = @F32Ops.mul F i x y := h.mul x y
theorem b_div (x y : F) : @F32Ops.div F j x y = @F32Ops.div F i x y := h.div x y
theorem b_neg (x : F) : @F32Ops.neg F j x = @F32Ops.neg F i x := h.neg x
theorem b_recip (x : F) : @F32Ops.recip F j x = @F32Ops.recip F i x := h.recip x
theorem b_exp2 (n : Int) : @F32Ops.exp2 F j (@F32Ops.ofInt F i n) = @F32Ops.exp2 F i (@F32Ops.ofInt F i n) := h.exp2_ofInt n

theorem b_resolution : @resolutionCorrection F j = @resolutionCorrection F i := by
  funext a b
  simp only [resolutionCorrection, h.ofInt, b_exp2 i j h]

theorem b_deltaV : @deltaV F ε j = @deltaV F ε i := by
  funext m c v
  simp only [deltaV, b_div i j h, b_ofInt i j h]

theorem b_art : @vPtatArt F j = @vPtatArt F i := by
  have h18 : @F32Ops.exp2 F j (@F32Ops.lit F i 18) = @F32Ops.exp2 F i (@F32Ops.lit F i 18) := h.exp2_lit 18
  funext c x y
  simp only [vPtatArt, b_div i j h, b_ofInt i j h, b_add i j h, b_mul i j h, b_lit i j h, h18]

theorem b_vDd : @vDd F j = @vDd F i := by
  funext c x y
  simp only [vDd, b_add i j h, b_mul i j h]

theorem b_ambient : @ambientTemperature F j = @ambientTemperature F i := by
  funext c x y
  simp only [ambientTemperature, b_div i j h, b_add i j h, b_mul i j h, b_lit i j h, b_sub i j h]

theorem b_common : @CommonIrData.new F ε j = @CommonIrData.new F ε i := by
  funext m r e c ram
  simp only [CommonIrData.new, b_div i j h, b_ofInt i j h, b_deltaV i j h, b_art i j h, b_vDd i j h, b_ambient i j h]

theorem b_vIr : @perPixelVIr F j = @perPixelVIr F i := by
  funext p c r kv kt comp
  simp only [perPixelVIr, b_div i j h, b_ofInt i j h, b_add i j h, b_mul i j h, b_lit i j h, b_sub i j h]

theorem b_cp : @cpOffset F j = @cpOffset F i := by
  funext c common ram s a
  simp only [cpOffset, b_vIr i j h, b_mul i j h]

theorem b_irData : @rawPixelsToIrData F ε j = @rawPixelsToIrData F ε i := by
  funext m c e r px ram s a v d
  simp only [rawPixelsToIrData, b_common i j h, b_cp i j h, b_vIr i j h, b_sub i j h]

theorem b_alphaCorrN (m : Mode) (basic : Nat) (ct : List Int) (ks : List F) (n : Nat) :
    @alphaCorrN F ε j m basic ct ks n = @alphaCorrN F ε i m basic ct ks n := by
  induction n using (measure fun n => (n - basic) + (basic - n)).wf.induction with
  | _ n ih =>
  unfold alphaCorrN
  by_cases h1 : n = basic
  · simp only [if_pos h1, b_lit i j h]
  · by_cases h2 : n < basic
    · simp only [if_neg h1, if_pos h2, b_lit i j h, b_recip i j h, b_add i j h, b_mul i j h, b_ofInt i j h]
      rw [ih (n + 1) (show (n + 1 - basic) + (basic - (n + 1)) < (n - basic) + (basic - n) by omega)]
    · simp only [if_neg h1, if_neg h2, b_lit i j h, b_add i j h, b_mul i j h, b_ofInt i j h]
      rw [ih (n - 1) (show (n - 1 - basic) + (basic - (n - 1)) < (n - basic) + (basic - n) by omega)]

theorem b_alphaCorr : @alphaCorrectionCoefficients F ε j = @alphaCorrectionCoefficients F ε i := by
  funext m nr basic ct ks
  unfold alphaCorrectionCoefficients
  rw [funext (b_alphaCorrN i j h m basic ct ks)]

theorem b_pixelStep640 : @Mlx90640.pixelStep F ε j = @Mlx90640.pixelStep F ε i := by
  funext m a b c d e f g k l n
  simp only [Mlx90640.pixelStep, b_div i j h, b_ofInt i j h, b_add i j h, b_lit i j h]

theorem b_pixelLoop640 (m : Mode) (a b c : Nat) (d e : F) (l : List ((Int × F) × Int)) :
    @Mlx90640.pixelLoop F ε j m a b c d e l = @Mlx90640.pixelLoop F ε i m a b c d e l := by
  induction l with
  | nil => rfl
  | cons x l ih => simp only [Mlx90640.pixelLoop, b_pixelStep640 i j h, ih]

theorem b_range640 : @Mlx90640.temperatureRangeData F ε j = @Mlx90640.temperatureRangeData F ε i := by
  simp only [Mlx90640.temperatureRangeData, b_div i j h, b_ofInt i j h, b_exp2 i j h]

theorem b_ap640 : @Mlx90640.accessPatternCorrections F ε j = @Mlx90640.accessPatternCorrections F ε i := by
  funext m
  simp only [Mlx90640.accessPatternCorrections, b_div i j h, b_ofInt i j h, b_add i j h, b_sub i j h, b_neg i j h, b_lit i j h]

theorem b_parse640 : @Mlx90640.parse F j = @Mlx90640.parse F i := by
  have h7 : @F32Ops.exp2 F j (@F32Ops.lit F i 7) = @F32Ops.exp2 F i (@F32Ops.lit F i 7) := h.exp2_lit 7
  have h5 : @F32Ops.exp2 F j (@F32Ops.lit F i 5) = @F32Ops.exp2 F i (@F32Ops.lit F i 5) := h.exp2_lit 5
  have h13 : @F32Ops.exp2 F j (@F32Ops.lit F i 13) = @F32Ops.exp2 F i (@F32Ops.lit F i 13) := h.exp2_lit 13
  funext m
  simp only [Mlx90640.parse, b_div i j h, b_ofInt i j h, b_add i j h, b_mul i j h, b_lit i j h, b_exp2 i j h, h7, h5, h13,
    b_range640 i j h, b_ap640 i j h, b_alphaCorr i j h, b_pixelLoop640 i j h]

theorem b_fromData640 : @Mlx90640.fromData F j = @Mlx90640.fromData F i := by
  funext m data
  simp only [Mlx90640.fromData, b_parse640 i j h]

theorem b_toCalib640 : @Mlx90640.Calibration.toCalib F j = @Mlx90640.Calibration.toCalib F i := by
  funext c
  simp only [Mlx90640.Calibration.toCalib, b_lit i j h]

theorem b_pixelStep641 : @Mlx90641.pixelStep F j = @Mlx90641.pixelStep F i := by
  funext m c px
  simp only [Mlx90641.pixelStep, Mlx90641.scaleFn, b_div i j h, b_ofInt i j h, b_add i j h, b_mul i j h, b_lit i j h]

theorem b_pixelLoop641 (m : Mode) (c : Mlx90641.PixelConsts F) (l : List ((((Word × Word) × Word) × Word) × F)) :
    @Mlx90641.pixelLoop F j m c l = @Mlx90641.pixelLoop F i m c l := by
  induction l with
  | nil => rfl
  | cons x l ih => simp only [Mlx90641.pixelLoop, b_pixelStep641 i j h, ih]

theorem b_consts641 : @Mlx90641.pixelConsts F j = @Mlx90641.pixelConsts F i := by
  funext m
  simp only [Mlx90641.pixelConsts, Mlx90641.sensitivityReference, b_div i j h, b_ofInt i j h, b_exp2 i j h]

theorem b_perPixel641 : @Mlx90641.perPixel F j = @Mlx90641.perPixel F i := by
  funext m data
  simp only [Mlx90641.perPixel, b_consts641 i j h, b_pixelLoop641 i j h]

theorem b_scalars641 : @Mlx90641.parseScalars F j = @Mlx90641.parseScalars F i := by
  have h15 : @F32Ops.exp2 F j (@F32Ops.lit F i 15) = @F32Ops.exp2 F i (@F32Ops.lit F i 15) := h.exp2_lit 15
  have h9 : @F32Ops.exp2 F j (@F32Ops.lit F i 9) = @F32Ops.exp2 F i (@F32Ops.lit F i 9) := h.exp2_lit 9
  funext m
  simp only [Mlx90641.parseScalars, Mlx90641.getScaledCpConstant, Mlx90641.getResolutionWithTgc, Mlx90641.temperatureRangeData,
    b_div i j h, b_ofInt i j h, b_lit i j h, b_exp2 i j h, h15, h9, b_alphaCorr i j h]

theorem b_fromData641 : @Mlx90641.fromData F j = @Mlx90641.fromData F i := by
  funext m data
  simp only [Mlx90641.fromData, b_scalars641 i j h, b_perPixel641 i j h]

theorem b_toCalib641 : @Mlx90641.Calibration.toCalib F j = @Mlx90641.Calibration.toCalib F i := by
  funext c
  simp only [Mlx90641.Calibration.toCalib, b_lit i j h]

theorem b_newWith : @Driver.newWithCalibration F σ ER EW j = @Driver.newWithCalibration F σ ER EW i := by
  funext b n s addr c
  simp only [Driver.newWithCalibration, b_resolution i j h, b_lit i j h]

theorem b_new640 : @Driver.new640 F σ ER EW j = @Driver.new640 F σ ER EW i := by
  funext m b s addr
  simp only [Driver.new640, Driver.new, b_newWith i j h, b_fromData640 i j h, b_toCalib640 i j h]

theorem b_new641 : @Driver.new641 F σ ER EW j = @Driver.new641 F σ ER EW i := by
  funext m b s addr
  simp only [Driver.new641, Driver.new, b_newWith i j h, b_fromData641 i j h, b_toCalib641 i j h]

theorem b_update : @Driver.updateControlRegister F σ ER EW j = @Driver.updateControlRegister F σ ER EW i := by
  funext r
  simp only [Driver.updateControlRegister, b_resolution i j h]

theorem b_control : @Driver.controlRegister F σ ER EW j = @Driver.controlRegister F σ ER EW i := by
  funext env
  simp only [Driver.controlRegister, b_update i j h]

theorem b_setControl : @Driver.setControlRegister F σ ER EW j = @Driver.setControlRegister F σ ER EW i := by
  funext env r
  simp only [Driver.setControlRegister, b_update i j h]

theorem b_setField {α : Type} [DecidableEq α] :
    ∀ (env : Env σ ER EW) g s (v : α), @Driver.setControlField F σ ER EW j env α _ g s v = @Driver.setControlField F σ ER EW i env α _ g s v := by
  intro env g s v
  simp only [Driver.setControlField, b_control i j h, b_setControl i j h]

theorem b_raw (env : Env σ ER EW) (sp : Subpage) (dest : List F) (d : Driver F σ) :
    @Driver.generateRawImageSubpageTo F σ ER EW j env sp dest d = @Driver.generateRawImageSubpageTo F σ ER EW i env sp dest d := by
  simp only [Driver.generateRawImageSubpageTo, b_irData i j h]

theorem b_temperatures (m : Mode) (c : Calib F) (e : F) (tR : Option F) (r : F) (px : List Byte) (ram : RamData) (s : Subpage)
    (a : AccessPattern) (v : List Bool) (d : List F) :
    (∃ tA d1 d2, @rawPixelsToTemperatures F ε j m c e tR r px ram s a v d = .ok (tA, d1) ∧
      @rawPixelsToTemperatures F ε i m c e tR r px ram s a v d = .ok (tA, d2)) ∨
    (∃ x, @rawPixelsToTemperatures F ε j m c e tR r px ram s a v d = .err x ∧
      @rawPixelsToTemperatures F ε i m c e tR r px ram s a v d = .err x) ∨
    (@rawPixelsToTemperatures F ε j m c e tR r px ram s a v d = .panic ∧
      @rawPixelsToTemperatures F ε i m c e tR r px ram s a v d = .panic) := by
  unfold rawPixelsToTemperatures
  rw [b_common i j h]
  cases @CommonIrData.new F ε i m r e c ram with
  | err x => exact Or.inr (Or.inl ⟨x, rfl, rfl⟩)
  | panic => exact Or.inr (Or.inr ⟨rfl, rfl⟩)
  | ok common =>
    cases hk : @idx ε F c.kSTo c.cam.basicRange with
    | err x => exact Or.inr (Or.inl ⟨x, rfl, rfl⟩)
    | panic => exact Or.inr (Or.inr ⟨rfl, rfl⟩)
    | ok k => exact Or.inl ⟨common.tA, _, _, rfl, rfl⟩

theorem b_image (env : Env σ ER EW) (sp : Subpage) (dest : List F) (d : Driver F σ) :
    (@Driver.generateImageSubpageTo F σ ER EW j env sp dest d).1 = (@Driver.generateImageSubpageTo F σ ER EW i env sp dest d).1 ∧
    (@Driver.generateImageSubpageTo F σ ER EW j env sp dest d).2.2 = (@Driver.generateImageSubpageTo F σ ER EW i env sp dest d).2.2 := by
  unfold Driver.generateImageSubpageTo
  generalize @Driver.readRam F σ ER EW env sp d = q
  obtain ⟨d', ram | e | _⟩ := q
  · dsimp only
    rcases b_temperatures i j h (ε := Err ER EW) env.mode d'.calib d'.emissivity d'.reflected d'.resCorr d'.pixelBuf ram sp
      d'.accessPattern (d'.calib.cam.pixelsInSubpage sp d'.accessPattern) dest with ⟨tA, d1, d2, h1, h2⟩ | ⟨x, h1, h2⟩ | ⟨h1, h2⟩ <;>
    · rw [h1, h2]
      exact ⟨rfl, rfl⟩
  · exact ⟨rfl, rfl⟩
  · exact ⟨rfl, rfl⟩

theorem b_imageTo (env : Env σ ER EW) (dest : List F) (d : Driver F σ) :
    (@Driver.generateImageTo F σ ER EW j env dest d).1 = (@Driver.generateImageTo F σ ER EW i env dest d).1 ∧
    (@Driver.generateImageTo F σ ER EW j env dest d).2.2 = (@Driver.generateImageTo F σ ER EW i env dest d).2.2 := by
  unfold Driver.generateImageTo
  generalize @Driver.lastMeasuredSubpage F σ ER EW env d = q
  obtain ⟨d', sp | e | _⟩ := q
  · exact b_image i j h env sp dest d'
  · exact ⟨rfl, rfl⟩
  · exact ⟨rfl, rfl⟩

theorem b_ifReady (env : Env σ ER EW) (dest : List F) (d : Driver F σ) :
    (@Driver.generateImageIfReady F σ ER EW j env dest d).1 = (@Driver.generateImageIfReady F σ ER EW i env dest d).1 ∧
    (@Driver.generateImageIfReady F σ ER EW j env dest d).2.2 = (@Driver.generateImageIfReady F σ ER EW i env dest d).2.2 := by
  rw [@ifReady_eq F σ ER EW j, @ifReady_eq F σ ER EW i]
  generalize regRead env.bus d.bus d.addr 0x8000#16 = q
  obtain ⟨s1, e | w⟩ := q
  · exact ⟨rfl, rfl⟩
  · dsimp only
    by_cases h3 : w.getLsbD 3 = true
    · rw [if_pos h3, if_pos h3]
      have hb := b_image i j h env (if w.getLsbD 0 then .one else .zero) dest { d with bus := s1 }
      generalize @Driver.generateImageSubpageTo F σ ER EW j env (if w.getLsbD 0 then .one else .zero) dest { d with bus := s1 } = q1 at hb ⊢
      generalize @Driver.generateImageSubpageTo F σ ER EW i env (if w.getLsbD 0 then .one else .zero) dest { d with bus := s1 } = q2 at hb ⊢
      obtain ⟨d1, dest1, o1⟩ := q1
      obtain ⟨d2, dest2, o2⟩ := q2
      dsimp only at hb
      obtain ⟨rfl, rfl⟩ := hb
      obtain _ | e | _ := o1
      · dsimp only
        generalize regWrite env.bus d1.bus d1.addr 0x8000#16 (StatusReg.resetNewData ⟨w⟩).raw = q
        obtain ⟨s4, _ | e⟩ := q <;> exact ⟨rfl, rfl⟩
      · exact ⟨rfl, rfl⟩
      · exact ⟨rfl, rfl⟩
    · rw [if_neg h3, if_neg h3]
      exact ⟨rfl, rfl⟩

theorem b_discardImage {α : Type} {r q : Driver F σ × List F × Res (Err ER EW) α} (hr : r.1 = q.1 ∧ r.2.2 = q.2.2) :
    discardImage r = discardImage q := by
  unfold discardImage
  rw [hr.1, hr.2]

theorem b_exec (env : Env σ ER EW) (op : Op F) (d : Driver F σ) :
    @Op.exec F σ ER EW j env op d = @Op.exec F σ ER EW i env op d := by
  cases op with
  | lastMeasuredSubpage => rfl
  | dataAvailable => rfl
  | resetDataAvailable => rfl
  | overwriteEnabled => rfl
  | setOverwriteEnabled v => rfl
  | overrideEmissivity v => rfl
  | setReflectedTemperature v => rfl
  | useDefaultEmissivity => simp only [Op.exec, Driver.useDefaultEmissivity, b_lit i j h]
  | synchronize fuel => rfl
  | generateRawImageSubpageTo sp dest => simp only [Op.exec, b_raw i j h]
  | generateImageSubpageTo sp dest => exact b_discardImage i j h (b_image i j h env sp dest d)
  | generateImageTo dest => exact b_discardImage i j h (b_imageTo i j h env dest d)
  | generateImageIfReady dest => exact b_discardImage i j h (b_ifReady i j h env dest d)
  | subpagesEnabled => simp only [Op.exec, Driver.subpagesEnabled, b_control i j h]
  | dataHoldEnabled => simp only [Op.exec, Driver.dataHoldEnabled, b_control i j h]
  | subpageRepeat => simp only [Op.exec, Driver.subpageRepeat, b_control i j h]
  | selectedSubpage => simp only [Op.exec, Driver.selectedSubpage, b_control i j h]
  | frameRate => simp only [Op.exec, Driver.frameRate, b_control i j h]
  | resolution => simp only [Op.exec, Driver.resolution, b_control i j h]
  | accessPattern => simp only [Op.exec, Driver.getAccessPattern, b_control i j h]
  | setUseSubpages v => simp only [Op.exec, Driver.setUseSubpages, b_setField i j h]
  | setDataHold v => simp only [Op.exec, Driver.setDataHold, b_setField i j h]
  | setSubpageRepeat v => simp only [Op.exec, Driver.setSubpageRepeat, b_setField i j h]
  | setSubpage v => simp only [Op.exec, Driver.setSubpage, b_setField i j h]
  | setFrameRate v => simp only [Op.exec, Driver.setFrameRate, b_setField i j h]
  | setResolution v => simp only [Op.exec, Driver.setResolution, b_setField i j h]
  | setAccessPattern v => simp only [Op.exec, Driver.setAccessPattern, b_setField i j h]

theorem b_runOps (env : Env σ ER EW) (ops : List (Op F)) (d : Driver F σ) :
    @runOps F σ ER EW j env ops d = @runOps F σ ER EW i env ops d := by
  unfold runOps
  congr 1
  funext d op
  rw [b_exec i j h]

end
end Mlx.Proofs
