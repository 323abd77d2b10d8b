import Verif.Props.Temperature
import Verif.Spec.Nearness
/-
C75: images of a camera computed in binary32 arithmetic, through the whole crate.
-/
set_option linter.unusedSectionVars false
set_option autoImplicit false
namespace Mlx.Props
open Mlx Mlx.Spec Mlx.Proofs F32Ops
variable {F σ ER EW : Type} [F32Ops F] [Binary32 F] {mem : σ → Word → Word}

/-! ### The error type does not matter -/

omit [Binary32 F] in
theorem common_error {ε ε' : Type} {m : Mode} {k : Calib F} {rc em : F} {r : RamData} {c : CommonIrData F}
    (h : CommonIrData.new (ε := ε) m rc em k r = .ok c) : CommonIrData.new (ε := ε') m rc em k r = .ok c := by
  unfold CommonIrData.new deltaV arith16 at *
  split at h
  · rename_i hr
    rw [if_pos hr]
    cases h
    rfl
  · rename_i hr
    rw [if_neg hr]
    cases m
    · cases h
    · cases h
      rfl

omit [Binary32 F] in
theorem raw_error {ε ε' : Type} {m : Mode} {k : Calib F} {rc em : F} {px : List Byte} {r : RamData} {s : Subpage}
    {a : AccessPattern} {valid : List Bool} {dest dest' : List F} {tA : F}
    (h : rawPixelsToIrData (ε := ε) m k em rc px r s a valid dest = .ok (tA, dest')) :
    rawPixelsToIrData (ε := ε') m k em rc px r s a valid dest = .ok (tA, dest') := by
  obtain ⟨c, h1, -⟩ := rawIr_ok h
  unfold rawPixelsToIrData at *
  rw [h1] at h
  rw [common_error (ε' := ε') h1]
  simp only [Res.ok_bind, Res.ok.injEq] at *
  exact h

omit [Binary32 F] in
theorem temps_error {ε ε' : Type} {m : Mode} {k : Calib F} {rc em : F} {tR : Option F} {px : List Byte} {r : RamData}
    {s : Subpage} {a : AccessPattern} {valid : List Bool} {dest dest' : List F} {tA : F}
    (h : rawPixelsToTemperatures (ε := ε) m k em tR rc px r s a valid dest = .ok (tA, dest')) :
    rawPixelsToTemperatures (ε := ε') m k em tR rc px r s a valid dest = .ok (tA, dest') := by
  obtain ⟨c, κ, h1, _, h2, -⟩ := temps_ok h
  unfold rawPixelsToTemperatures idx at *
  rw [h1, h2] at h
  rw [common_error (ε' := ε') h1, h2]
  simp only [Res.ok_bind, Res.ok.injEq] at *
  exact h

theorem ratio_correction (t : Calib ℝ) (w : Word) :
    (2 : ℝ) ^ CtrlField.resolution.code t.resolution / 2 ^ CtrlField.resolution.code (CtrlField.resolution.valueIn w) =
      correction t w := (correction_codes _ _).symm.trans (correction_eq t w)

theorem near_640 (env : Env σ ER EW) (d : Driver F σ) (hs : Supported env d) (h : StaticMemory env.bus d.addr mem)
    (hk : Complete d.calib d.calib.cam.numPixels) (hc : Caches d (mem d.bus 0x800D#16)) {δ : ℝ}
    (hcam : d.calib.cam = Mlx90640.cam)
    (h1 : Accurate env.mode d.calib (Ee640.calibration (eepromOf (mem d.bus))))
    (h2 : SignalAccurate env.mode d.calib (Ee640.calibration (eepromOf (mem d.bus))))
    (h3 : TemperatureAccurate env.mode d.calib (Ee640.calibration (eepromOf (mem d.bus))) δ)
    (em : ℝ) (given : Option ℝ) (hem : Is d.effectiveEmissivity em) (hgiven : Option.Rel Is d.reflectedTemperature given)
    (sp : Subpage) (dest dest' : List F) (d' : Driver F σ) :
    let M := mem d.bus
    let p := Mlx90640Memory.pixel M em given sp
    (Driver.generateRawImageSubpageTo env sp dest d = (d', dest', .ok ()) →
      NearAmbient (Ee640.calibration (eepromOf M)) (Mlx90640Memory.readings M sp) d' ∧
      DrawnNear (Mlx90640Memory.measured M sp) (fun i => (p i).Evaluable) (fun i => (p i).signal) (fun i => (p i).signalError)
        dest dest') ∧
    (Driver.generateImageSubpageTo env sp dest d = (d', dest', .ok ()) →
      NearAmbient (Ee640.calibration (eepromOf M)) (Mlx90640Memory.readings M sp) d' ∧
      DrawnNear (Mlx90640Memory.measured M sp) (fun i => (p i).Computable δ) (fun i => (p i).temperature)
        (fun i => (p i).temperatureError δ) dest dest') := by
  intro M p
  have hread : frameReadings d.calib.cam sp M = Mlx90640Memory.readings M sp := by
    rw [hcam]; cases sp <;> rfl
  have hap : d.accessPattern = pattern (M 0x800D#16) := hc.1.trans (pattern_valueIn _)
  have hrc : d.resCorr = resolutionCorrection d.calib.resolution (CtrlField.resolution.valueIn (M 0x800D#16)) := hc.2
  have hsel : ∀ i, (i < d.calib.cam.numPixels ∧ (d.calib.cam.pixelsInSubpage sp d.accessPattern)[i]? = some true) ↔
      Mlx90640Memory.measured M sp i := by
    intro i
    rw [hcam, show Mlx90640.cam.numPixels = 768 from rfl, hap]
    unfold Mlx90640Memory.measured
    refine and_congr_right fun hi => ?_
    rw [(C12_mlx90640_subpage_partition _).2.1 sp i hi, Option.some.injEq, decide_eq_true_iff]
    unfold Selected640
    cases pattern (M 0x800D#16) <;> exact Iff.rfl
  have hnot : ∀ i, ¬ Mlx90640Memory.measured M sp i →
      (d.calib.cam.pixelsInSubpage sp d.accessPattern)[i]? ≠ some true ∨ 768 ≤ i := by
    intro i hn
    by_cases hi : i < 768
    · left
      intro hv
      exact hn ((hsel i).1 ⟨by rw [hcam]; exact hi, hv⟩)
    · right; omega
  have hn : d.calib.cam.numPixels = 768 := by rw [hcam]; rfl
  have hat : ∀ {i address}, PixelAt d.calib.cam sp i address → address = BitVec.ofNat 16 (0x0400 + i) := by
    intro i address hp
    rw [hcam] at hp
    rcases hp with ⟨_, hp⟩ | ⟨hp, _⟩
    · exact hp
    · exact absurd (congrArg Cam.numPixels hp) (show ¬ ((768 : Nat) = 192) by decide)
  have hcomp : ∀ i, i < 768 → ∃ o : Option ℝ,
      ((Ee640.calibration (eepromOf M)).apComp (pattern (M 0x800D#16)))[i]? = some o ∧ o.getD 0 = Mlx90640Memory.comp M i := by
    intro i hi
    unfold Mlx90640Memory.comp
    generalize pattern (M 0x800D#16) = q
    cases q
    · exact ⟨_, table_get (fun _ => none) hi, rfl⟩
    · exact ⟨_, table_get (fun i => some (Ee640.interleave (eepromOf M) i)) hi, rfl⟩
  have hword : ∀ w : Word, be16 (hiByte w) (loByte w) = w := fun _ => be16_toBe _
  constructor
  · intro hg
    obtain ⟨px, tA, hpx, hconv, hamb, -⟩ := (C55_frame_of_memory env d hs h sp dest dest' d').2 hg
    unfold toRawImage at hconv
    have hconv' := raw_error (ε' := Unit) hconv
    rw [hread, hrc] at hconv'
    refine ⟨fun hp => ⟨tA, hamb, ((h1 _ hp (CtrlField.resolution.valueIn (M 0x800D#16))).2 _ none _ _ _ _ _ _ _).1 hconv'⟩,
      (C18_unselected_pixels_kept env.mode d.calib d.emissivity d.resCorr tA none px _ sp d.accessPattern _ dest dest').1 hconv
        |>.1, fun i => ⟨fun hm hgood hi => ?_, fun hm => ?_⟩⟩
    · have hsl := (hsel i).2 hm
      obtain ⟨address, ht, hhi, hlo⟩ := hpx i hsl.1 hsl.2
      obtain rfl := hat ht
      obtain ⟨o, ho, ho'⟩ := hcomp i hm.1
      have key := h2 (Mlx90640Memory.readings M sp) (CtrlField.resolution.valueIn (M 0x800D#16)) d.emissivity em px sp d.accessPattern
        (d.calib.cam.pixelsInSubpage sp d.accessPattern) dest dest' tA
      dsimp only at key
      rw [ratio_correction] at key
      have := key hgood.readable hem hgood.emissivity.1 hgood.emissivity.2 hconv' i _ _ _ _ _ o hsl.2 hi hhi hlo
        (table_get _ hm.1) (table_get _ hm.1) (table_get _ hm.1) (by rw [hap]; exact ho)
      rw [ho', hap, hword] at this
      exact this
    · refine ((C18_unselected_pixels_kept env.mode d.calib d.emissivity d.resCorr tA none px _ sp d.accessPattern
        _ dest dest').1 hconv).2 i ?_
      rcases hnot i hm with hf | hf
      · exact Or.inl hf
      · exact Or.inr (Or.inr (Or.inl (by rw [hk.offsetRef, hn]; exact hf)))
  · intro hg
    obtain ⟨px, tA, hpx, hconv, hamb, -⟩ := (C55_frame_of_memory env d hs h sp dest dest' d').1 hg
    unfold toTemperatures at hconv
    have hconv' := temps_error (ε' := Unit) hconv
    rw [hread, hrc] at hconv'
    refine ⟨fun hp => ⟨tA, hamb, ((h1 _ hp (CtrlField.resolution.valueIn (M 0x800D#16))).2 _ _ _ _ _ _ _ _ _).2 hconv'⟩,
      (C18_unselected_pixels_kept env.mode d.calib d.emissivity d.resCorr tA d.reflected px _ sp d.accessPattern _ dest dest').2.1
        hconv |>.1, fun i => ⟨fun hm hgood hi => ?_, fun hm => ?_⟩⟩
    · have hsl := (hsel i).2 hm
      obtain ⟨address, ht, hhi, hlo⟩ := hpx i hsl.1 hsl.2
      obtain rfl := hat ht
      obtain ⟨o, ho, ho'⟩ := hcomp i hm.1
      obtain ⟨hev, hwarm, hmeas⟩ := hgood
      have h8 : ((Ee640.calibration (eepromOf M)).cam.selfHeating : ℝ) = 8 := by
        show ((8 : Rat) : ℝ) = 8; norm_num
      have key := h3 (Mlx90640Memory.readings M sp) (CtrlField.resolution.valueIn (M 0x800D#16)) d.emissivity em d.reflected given px sp d.accessPattern
        (d.calib.cam.pixelsInSubpage sp d.accessPattern) dest dest' tA
      dsimp only at key
      rw [ratio_correction, h8] at key
      have := key hev.readable hem hev.emissivity.1 hev.emissivity.2 hgiven hwarm.sensor hwarm.surroundings.1
        hwarm.surroundings.2 hconv' i _ _ _ _ _ _ _ o hsl.2 hi hhi hlo
        (table_get _ hm.1) (table_get _ hm.1) (table_get _ hm.1) (table_get _ hm.1) (by rw [hap]; exact ho) rfl
      rw [ho', hap, hword] at this
      exact this hmeas
    · refine ((C18_unselected_pixels_kept env.mode d.calib d.emissivity d.resCorr tA d.reflected px _ sp
        d.accessPattern _ dest dest').2.1 hconv).2 i ?_
      rcases hnot i hm with hf | hf
      · exact Or.inl (Or.inl hf)
      · exact Or.inl (Or.inr (Or.inr (Or.inl (by rw [hk.offsetRef, hn]; exact hf))))

theorem near_641 (D : Nat → BitVec 11) (env : Env σ ER EW) (d : Driver F σ) (hs : Supported env d) (h : StaticMemory env.bus d.addr mem)
    (hk : Complete d.calib d.calib.cam.numPixels) (hc : Caches d (mem d.bus 0x800D#16)) {δ : ℝ}
    (hcam : d.calib.cam = Mlx90641.cam)
    (h1 : Accurate env.mode d.calib (Ee641.calibration D))
    (h2 : SignalAccurate env.mode d.calib (Ee641.calibration D))
    (h3 : TemperatureAccurate env.mode d.calib (Ee641.calibration D) δ)
    (em : ℝ) (given : Option ℝ) (hem : Is d.effectiveEmissivity em) (hgiven : Option.Rel Is d.reflectedTemperature given)
    (sp : Subpage) (dest dest' : List F) (d' : Driver F σ) :
    let M := mem d.bus
    let p := Mlx90641Memory.pixel M D em given sp
    (Driver.generateRawImageSubpageTo env sp dest d = (d', dest', .ok ()) →
      NearAmbient (Ee641.calibration D) (Mlx90641Memory.readings M sp) d' ∧
      DrawnNear (fun i => i < 192) (fun i => (p i).Evaluable) (fun i => (p i).signal) (fun i => (p i).signalError)
        dest dest') ∧
    (Driver.generateImageSubpageTo env sp dest d = (d', dest', .ok ()) →
      NearAmbient (Ee641.calibration D) (Mlx90641Memory.readings M sp) d' ∧
      DrawnNear (fun i => i < 192) (fun i => (p i).Computable δ) (fun i => (p i).temperature)
        (fun i => (p i).temperatureError δ) dest dest') := by
  intro M p
  have hread : frameReadings d.calib.cam sp M = Mlx90641Memory.readings M sp := by
    rw [hcam]; cases sp <;> rfl
  have hap : d.accessPattern = pattern (M 0x800D#16) := hc.1.trans (pattern_valueIn _)
  have hrc : d.resCorr = resolutionCorrection d.calib.resolution (CtrlField.resolution.valueIn (M 0x800D#16)) := hc.2
  have hsel : ∀ i, (i < d.calib.cam.numPixels ∧ (d.calib.cam.pixelsInSubpage sp d.accessPattern)[i]? = some true) ↔
      i < 192 := by
    intro i
    rw [hcam, show Mlx90641.cam.numPixels = 192 from rfl]
    exact ⟨fun h => h.1, fun hi => ⟨hi, (C13_mlx90641_full_subpages sp _).2 i hi⟩⟩
  have hnot : ∀ i, ¬ i < 192 →
      (d.calib.cam.pixelsInSubpage sp d.accessPattern)[i]? ≠ some true ∨ 192 ≤ i := by
    intro i hn
    by_cases hi : i < 192
    · left
      intro hv
      exact hn ((hsel i).1 ⟨by rw [hcam]; exact hi, hv⟩)
    · right; omega
  have hn : d.calib.cam.numPixels = 192 := by rw [hcam]; rfl
  have hat : ∀ {i address}, PixelAt d.calib.cam sp i address → address = Mlx90641Memory.address sp i := by
    intro i address hp
    rw [hcam] at hp
    rcases hp with ⟨hp, _⟩ | ⟨_, hp⟩
    · exact absurd (congrArg Cam.numPixels hp) (show ¬ ((192 : Nat) = 768) by decide)
    · exact hp
  have hcomp : ∀ i, i < 192 → ∃ o : Option ℝ,
      ((Ee641.calibration D).apComp (pattern (M 0x800D#16)))[i]? = some o ∧ o.getD 0 = 0 := by
    intro i hi
    exact ⟨_, table_get (fun _ => none) hi, rfl⟩
  have hword : ∀ w : Word, be16 (hiByte w) (loByte w) = w := fun _ => be16_toBe _
  constructor
  · intro hg
    obtain ⟨px, tA, hpx, hconv, hamb, -⟩ := (C55_frame_of_memory env d hs h sp dest dest' d').2 hg
    unfold toRawImage at hconv
    have hconv' := raw_error (ε' := Unit) hconv
    rw [hread, hrc] at hconv'
    refine ⟨fun hp => ⟨tA, hamb, ((h1 _ hp (CtrlField.resolution.valueIn (M 0x800D#16))).2 _ none _ _ _ _ _ _ _).1 hconv'⟩,
      (C18_unselected_pixels_kept env.mode d.calib d.emissivity d.resCorr tA none px _ sp d.accessPattern _ dest dest').1 hconv
        |>.1, fun i => ⟨fun hm hgood hi => ?_, fun hm => ?_⟩⟩
    · have hsl := (hsel i).2 hm
      obtain ⟨address, ht, hhi, hlo⟩ := hpx i hsl.1 hsl.2
      obtain rfl := hat ht
      obtain ⟨o, ho, ho'⟩ := hcomp i hm
      have key := h2 (Mlx90641Memory.readings M sp) (CtrlField.resolution.valueIn (M 0x800D#16)) d.emissivity em px sp d.accessPattern
        (d.calib.cam.pixelsInSubpage sp d.accessPattern) dest dest' tA
      dsimp only at key
      rw [ratio_correction] at key
      have := key hgood.readable hem hgood.emissivity.1 hgood.emissivity.2 hconv' i _ _ _ _ _ o hsl.2 hi hhi hlo
        (table_get _ hm) (table_get _ hm) (table_get _ hm) (by rw [hap]; exact ho)
      rw [ho', hap, hword] at this
      exact this
    · refine ((C18_unselected_pixels_kept env.mode d.calib d.emissivity d.resCorr tA none px _ sp d.accessPattern
        _ dest dest').1 hconv).2 i ?_
      rcases hnot i hm with hf | hf
      · exact Or.inl hf
      · exact Or.inr (Or.inr (Or.inl (by rw [hk.offsetRef, hn]; exact hf)))
  · intro hg
    obtain ⟨px, tA, hpx, hconv, hamb, -⟩ := (C55_frame_of_memory env d hs h sp dest dest' d').1 hg
    unfold toTemperatures at hconv
    have hconv' := temps_error (ε' := Unit) hconv
    rw [hread, hrc] at hconv'
    refine ⟨fun hp => ⟨tA, hamb, ((h1 _ hp (CtrlField.resolution.valueIn (M 0x800D#16))).2 _ _ _ _ _ _ _ _ _).2 hconv'⟩,
      (C18_unselected_pixels_kept env.mode d.calib d.emissivity d.resCorr tA d.reflected px _ sp d.accessPattern _ dest dest').2.1
        hconv |>.1, fun i => ⟨fun hm hgood hi => ?_, fun hm => ?_⟩⟩
    · have hsl := (hsel i).2 hm
      obtain ⟨address, ht, hhi, hlo⟩ := hpx i hsl.1 hsl.2
      obtain rfl := hat ht
      obtain ⟨o, ho, ho'⟩ := hcomp i hm
      obtain ⟨hev, hwarm, hmeas⟩ := hgood
      have h5 : ((Ee641.calibration D).cam.selfHeating : ℝ) = 5 := by
        show ((5 : Rat) : ℝ) = 5; norm_num
      have key := h3 (Mlx90641Memory.readings M sp) (CtrlField.resolution.valueIn (M 0x800D#16)) d.emissivity em d.reflected given px sp d.accessPattern
        (d.calib.cam.pixelsInSubpage sp d.accessPattern) dest dest' tA
      dsimp only at key
      rw [ratio_correction, h5] at key
      have := key hev.readable hem hev.emissivity.1 hev.emissivity.2 hgiven hwarm.sensor hwarm.surroundings.1
        hwarm.surroundings.2 hconv' i _ _ _ _ _ _ _ o hsl.2 hi hhi hlo
        (table_get _ hm) (table_get _ hm) (table_get _ hm) (table_get _ hm) (by rw [hap]; exact ho) rfl
      rw [ho', hap, hword] at this
      exact this hmeas
    · refine ((C18_unselected_pixels_kept env.mode d.calib d.emissivity d.resCorr tA d.reflected px _ sp
        d.accessPattern _ dest dest').2.1 hconv).2 i ?_
      rcases hnot i hm with hf | hf
      · exact Or.inl (Or.inl hf)
      · exact Or.inl (Or.inr (Or.inr (Or.inl (by rw [hk.offsetRef, hn]; exact hf))))

/-- **C75 (MLX90640).** The whole crate in binary32 arithmetic, on a camera whose memory is only changed by writes and by its
measurements, and with any bus errors: construct a driver, do anything (without a failing control register write) while the
camera measures between the calls, then make an image. Whenever a method succeeds, every pixel of
the subpage for which the conditions of C71 or C74 hold is within the bounds of C71 or C74 of the documented function of the
camera's memory and the user's settings; the ambient temperature is within the bound of C70; and the other elements are
untouched. -/
theorem C75_camera_640 (m : Mode) (b : Bus σ ER EW) (s s' : σ) (addr : Byte) (h : StaticMemory b addr mem)
    (d : Driver F σ) (hd : Driver.new640 m b s addr = (s', .ok d)) (hreg : Ee640.Regular (eepromOf (mem s)))
    (calls : List (Op F × Res (Err ER EW) Unit)) (d1 : Driver F σ) (hx : Session ⟨m, 24, b⟩ mem anyFrame d calls d1)
    (hn : ∀ c ∈ calls, ¬ ControlWriteFailed c.1 c.2) {δ : ℝ} (hp : AccuratePowers F δ) (em : ℝ)
    (given : Option ℝ) (dest dest' : List F) (d' : Driver F σ) :
    let env : Env σ ER EW := ⟨m, 24, b⟩
    let M := mem d1.bus
    let p := Mlx90640Memory.pixel M em given
    let settled := fun sp => NearAmbient (Ee640.calibration (eepromOf M)) (Mlx90640Memory.readings M sp) d'
    let thermal := fun sp => DrawnNear (Mlx90640Memory.measured M sp) (fun i => (p sp i).Computable δ)
      (fun i => (p sp i).temperature) (fun i => (p sp i).temperatureError δ) dest dest'
    Is d1.effectiveEmissivity em → Option.Rel Is d1.reflectedTemperature given →
    (∀ sp, Driver.generateRawImageSubpageTo env sp dest d1 = (d', dest', .ok ()) → settled sp ∧
      DrawnNear (Mlx90640Memory.measured M sp) (fun i => (p sp i).Evaluable) (fun i => (p sp i).signal)
        (fun i => (p sp i).signalError) dest dest') ∧
    (∀ sp, Driver.generateImageSubpageTo env sp dest d1 = (d', dest', .ok ()) → settled sp ∧ thermal sp) ∧
    (Driver.generateImageTo env dest d1 = (d', dest', .ok ()) →
      settled (statusSubpage (M 0x8000#16)) ∧ thermal (statusSubpage (M 0x8000#16))) ∧
    (Driver.generateImageIfReady env dest d1 = (d', dest', .ok true) → (M 0x8000#16).getLsbD 3 = true ∧
      settled (statusSubpage (M 0x8000#16)) ∧ thermal (statusSubpage (M 0x8000#16))) := by
  intro env M p settled thermal hem hgiven
  obtain ⟨hmem, c, hc, hcal⟩ := new_static h hd
  obtain ⟨hs, ha⟩ := (C39_constructed_drivers_supported m b s addr).1 s' d hd
  have hk := constructed_complete (Or.inl hd)
  have hst : StaticMemory env.bus d.addr mem := by rw [ha]; exact h
  have hca := session_caches hs hst (C47_after_construction m b s s' addr d h (Or.inl hd)) hx hn
  obtain ⟨hs1, ha1, hcal1⟩ := session_supported hs hx
  have hM : ∀ a, ¬ Volatile a → a ≠ 0x800D#16 → M a = mem s a := fun a h1 h2 =>
    (session_memory hs hst hx a h1 h2).trans (by rw [hmem])
  have hsame : SameEeprom (eepromWord (memBytes (mem s) 0x2400#16 1664)) (eepromOf M) := by
    intro a h1 h2
    rw [eepromWord_memBytes _ h1 h2]
    exact (hM _ (eeprom_still h1 h2).1 (eeprom_still h1 h2).2).symm
  have hreg' : Ee640.Regular (eepromWord (memBytes (mem s) 0x2400#16 1664)) := by
    refine SameEeprom.regular (E := eepromOf (mem s)) ?_ hreg
    intro a h1 h2
    exact (eepromWord_memBytes _ h1 h2).symm
  have hcc : d1.calib = c.toCalib := hcal1.trans hcal
  have acc : Accurate m d1.calib (Ee640.calibration (eepromOf M)) ∧ SignalAccurate m d1.calib (Ee640.calibration (eepromOf M)) ∧
      TemperatureAccurate m d1.calib (Ee640.calibration (eepromOf M)) δ := by
    rw [hcc, ← hsame.calibration]
    exact ⟨C70_accurate_640 m m _ c hc hreg', C71_signal_640 m m _ c hc hreg', C74_temperature_640 m m _ c hp hc hreg'⟩
  have hk1 : Complete d1.calib d1.calib.cam.numPixels := by rw [hcal1]; exact hk
  have hst1 : StaticMemory env.bus d1.addr mem := by rw [ha1]; exact hst
  have key := fun (s1 : σ) (hs2 : mem s1 = M) (sp : Subpage) (d2 : Driver F σ) =>
    near_640 env { d1 with bus := s1 } ⟨hs1.1, hs1.2, hs1.3⟩ hst1 hk1
      (by show Caches d1 (mem s1 0x800D#16); rw [hs2]; exact hca) (δ := δ) (by show d1.calib.cam = _; rw [hcc]; rfl)
      (by show Accurate m d1.calib (Ee640.calibration (eepromOf (mem s1))); rw [hs2]; exact acc.1)
      (by show SignalAccurate m d1.calib (Ee640.calibration (eepromOf (mem s1))); rw [hs2]; exact acc.2.1)
      (by show TemperatureAccurate m d1.calib (Ee640.calibration (eepromOf (mem s1))) δ; rw [hs2]; exact acc.2.2)
      em given hem hgiven sp dest dest' d2
  refine ⟨fun sp hg => (key d1.bus rfl sp d').1 hg, fun sp hg => (key d1.bus rfl sp d').2 hg, fun hg => ?_, fun hg => ?_⟩
  · obtain ⟨s1, h1, h2⟩ := imageTo_reduces env d1 hst1 dest dest' d' hg
    have := (key s1 h1 _ d').2 h2
    dsimp only at this
    rw [h1] at this
    exact this
  · obtain ⟨h3, s1, d2, h1, h4, h2⟩ := ifReady_reduces env d1 hst1 dest dest' d' hg
    have := (key s1 h1 _ d2).2 h2
    dsimp only at this
    rw [h1] at this
    refine ⟨h3, fun hpl => ?_, this.2⟩
    rw [h4]
    exact this.1 hpl

/-- **C75 (MLX90641).** The same for the MLX90641, whose EEPROM words hold the values `D`, each with at most one wrong bit. -/
theorem C75_camera_641 (m : Mode) (b : Bus σ ER EW) (s s' : σ) (addr : Byte) (h : StaticMemory b addr mem)
    (d : Driver F σ) (hd : Driver.new641 m b s addr = (s', .ok d)) (D : Nat → BitVec 11) (hreg : Ee641.Regular D)
    (hD : ∀ a ∈ Ee641.readAddresses 192, WithinOneBit (eepromOf (mem s) a) (codeword (D a))) (hmod : ModerateScales D)
    (calls : List (Op F × Res (Err ER EW) Unit)) (d1 : Driver F σ) (hx : Session ⟨m, 12, b⟩ mem anyFrame d calls d1)
    (hn : ∀ c ∈ calls, ¬ ControlWriteFailed c.1 c.2) {δ : ℝ} (hp : AccuratePowers F δ) (em : ℝ)
    (given : Option ℝ) (dest dest' : List F) (d' : Driver F σ) :
    let env : Env σ ER EW := ⟨m, 12, b⟩
    let M := mem d1.bus
    let p := Mlx90641Memory.pixel M D em given
    let settled := fun sp => NearAmbient (Ee641.calibration D) (Mlx90641Memory.readings M sp) d'
    let thermal := fun sp => DrawnNear (fun i => i < 192) (fun i => (p sp i).Computable δ)
      (fun i => (p sp i).temperature) (fun i => (p sp i).temperatureError δ) dest dest'
    Is d1.effectiveEmissivity em → Option.Rel Is d1.reflectedTemperature given →
    (∀ sp, Driver.generateRawImageSubpageTo env sp dest d1 = (d', dest', .ok ()) → settled sp ∧
      DrawnNear (fun i => i < 192) (fun i => (p sp i).Evaluable) (fun i => (p sp i).signal)
        (fun i => (p sp i).signalError) dest dest') ∧
    (∀ sp, Driver.generateImageSubpageTo env sp dest d1 = (d', dest', .ok ()) → settled sp ∧ thermal sp) ∧
    (Driver.generateImageTo env dest d1 = (d', dest', .ok ()) →
      settled (statusSubpage (M 0x8000#16)) ∧ thermal (statusSubpage (M 0x8000#16))) ∧
    (Driver.generateImageIfReady env dest d1 = (d', dest', .ok true) → (M 0x8000#16).getLsbD 3 = true ∧
      settled (statusSubpage (M 0x8000#16)) ∧ thermal (statusSubpage (M 0x8000#16))) := by
  intro env M p settled thermal hem hgiven
  obtain ⟨hmem, c, hc, hcal⟩ := new_static h hd
  obtain ⟨hs, ha⟩ := (C39_constructed_drivers_supported m b s addr).2 s' d hd
  have hk := constructed_complete (Or.inr hd)
  have hst : StaticMemory env.bus d.addr mem := by rw [ha]; exact h
  have hca := session_caches hs hst (C47_after_construction m b s s' addr d h (Or.inr hd)) hx hn
  obtain ⟨hs1, ha1, hcal1⟩ := session_supported hs hx
  have hholds : Ee641.Holds (memBytes (mem s) 0x2400#16 1664) D (Ee641.readAddresses 192) := by
    intro a ha
    have hb := readAddresses_bounds ha
    rw [eepromWord_memBytes _ (by omega) hb.2.1]
    exact hD a ha
  have hcc : d1.calib = c.toCalib := hcal1.trans hcal
  have acc : Accurate m d1.calib (Ee641.calibration D) ∧ SignalAccurate m d1.calib (Ee641.calibration D) ∧
      TemperatureAccurate m d1.calib (Ee641.calibration D) δ := by
    rw [hcc]
    exact ⟨C70_accurate_641 m m _ c hc D hholds hreg hmod, C71_signal_641 m m _ c hc D hholds hreg hmod,
      C74_temperature_641 m m _ c hp hc D hholds hreg hmod⟩
  have hk1 : Complete d1.calib d1.calib.cam.numPixels := by rw [hcal1]; exact hk
  have hst1 : StaticMemory env.bus d1.addr mem := by rw [ha1]; exact hst
  have key := fun (s1 : σ) (hs2 : mem s1 = M) (sp : Subpage) (d2 : Driver F σ) =>
    near_641 D env { d1 with bus := s1 } ⟨hs1.1, hs1.2, hs1.3⟩ hst1 hk1
      (by show Caches d1 (mem s1 0x800D#16); rw [hs2]; exact hca) (δ := δ) (by show d1.calib.cam = _; rw [hcc]; rfl)
      acc.1 acc.2.1 acc.2.2 em given hem hgiven sp dest dest' d2
  refine ⟨fun sp hg => (key d1.bus rfl sp d').1 hg, fun sp hg => (key d1.bus rfl sp d').2 hg, fun hg => ?_, fun hg => ?_⟩
  · obtain ⟨s1, h1, h2⟩ := imageTo_reduces env d1 hst1 dest dest' d' hg
    have := (key s1 h1 _ d').2 h2
    dsimp only at this
    rw [h1] at this
    exact this
  · obtain ⟨h3, s1, d2, h1, h4, h2⟩ := ifReady_reduces env d1 hst1 dest dest' d' hg
    have := (key s1 h1 _ d2).2 h2
    dsimp only at this
    rw [h1] at this
    refine ⟨h3, fun hpl => ?_, this.2⟩
    rw [h4]
    exact this.1 hpl


/-- The memory of the example, with a gain of 6881, a compensation pixel that reads -54 and a pixel 367 that reads 512. -/
def sceneMemory (a : Word) : Word :=
  if a = 0x056F#16 then 512#16 else if a = 0x0708#16 then 0xFFCA#16 else if a = 0x070A#16 then 0x1AE1#16
  else if a = 0x8000#16 then 0x0008#16 else exampleMemory words640 a

theorem scene_same : SameEeprom (eepromOf (exampleMemory words640)) (eepromOf sceneMemory) := by
  intro a h1 h2
  unfold eepromOf sceneMemory
  have hne : ∀ k : Nat, k < 0x2400 ∨ 0x2740 ≤ k ∧ k < 0x10000 → BitVec.ofNat 16 a ≠ BitVec.ofNat 16 k := by
    intro k hk he
    have := congrArg BitVec.toNat he
    rw [BitVec.toNat_ofNat, BitVec.toNat_ofNat, Nat.mod_eq_of_lt (by omega), Nat.mod_eq_of_lt (by omega)] at this
    omega
  rw [if_neg (hne 0x056F (by omega)), if_neg (hne 0x0708 (by omega)), if_neg (hne 0x070A (by omega)),
    if_neg (hne 0x8000 (by omega))]

/-- The inputs of pixel 367 in this memory. -/
theorem scene_pixel : Mlx90640Memory.pixel sceneMemory 1 none .zero 367 =
    { table := Ee640.calibration (eepromWord example640), control := 0x1901#16, readings := readings640, emissivity := 1,
      given := none, heating := 8, subpage := .zero, raw := 512, offset := -75, alpha := 17348 / 2 ^ 37, kV := 4 / 2 ^ 3,
      kTa := 84 / 2 ^ 14, comp := 0, kSTo := -105 / 2 ^ 17 } := by
  have hee : ∀ a, 0x2400 ≤ a → a < 0x2740 → eepromOf sceneMemory a = BitVec.ofNat 16 (words640 (a - 0x2400)) :=
    fun a h1 h2 => (scene_same a h1 h2).symm.trans (exampleMemory_eeprom words640 h1 h2)
  have hsame : SameEeprom (eepromOf sceneMemory) (eepromWord example640) := by
    intro a a1 a2
    rw [hee a a1 a2]
    obtain ⟨k, rfl⟩ := Nat.exists_eq_add_of_le a1
    rw [Nat.add_sub_cancel_left]
    exact (eepromWord_dump _ k (by omega)).symm
  have hcontrol : sceneMemory 0x800D#16 = 0x1901#16 := by decide +kernel
  have hread : Mlx90640Memory.readings sceneMemory .zero = readings640 := by
    have h1 : sceneMemory 0x0700#16 = 0x4BF2#16 := by decide +kernel
    have h2 : sceneMemory 0x0720#16 = 0x06AF#16 := by decide +kernel
    have h3 : sceneMemory 0x072A#16 = 0xCCC5#16 := by decide +kernel
    have h4 : sceneMemory 0x070A#16 = 0x1AE1#16 := by decide +kernel
    have h5 : sceneMemory 0x0708#16 = 0xFFCA#16 := by decide +kernel
    unfold Mlx90640Memory.readings readings640
    simp only [h1, h2, h3, h4, h5]
    congr 1
  have hraw : (sceneMemory (BitVec.ofNat 16 (0x0400 + 367))).toInt = 512 := by decide +kernel
  have hpat : pattern (sceneMemory 0x800D#16) = .chess := by rw [hcontrol]; decide
  generalize hE : eepromOf sceneMemory = E at hsame
  have ht := hsame.calibration
  generalize htt : Ee640.calibration E = t at ht
  obtain ⟨⟨e1, e2, e3, e4, e5, e6, e7⟩, ⟨g1, g2, g3, g4, g5⟩, -, p1, p2, p3, p4, p5⟩ := parameters640 t ht
  rw [← htt] at p1 p2 p3 p4 g3
  have q1 : Ee640.offset E 367 = -75 := Option.some.inj ((table_get (Ee640.offset E) (n := 768) (by norm_num)).symm.trans p1)
  have q2 : Ee640.alpha E 367 = 17348 / 2 ^ 37 :=
    Option.some.inj ((table_get (Ee640.alpha E) (n := 768) (by norm_num)).symm.trans p2)
  have q3 : Ee640.kV E 367 = 4 / 2 ^ 3 :=
    Option.some.inj ((table_get (Ee640.kV E) (n := 768) (by norm_num)).symm.trans p3)
  have q4 : Ee640.kTa E 367 = 84 / 2 ^ 14 :=
    Option.some.inj ((table_get (Ee640.kTa E) (n := 768) (by norm_num)).symm.trans p4)
  have q5 : (signedAt (E 0x243D) 8 8 : ℝ) / 2 ^ (bitsAt (E 0x243F) 0 4 + 8) = -105 / 2 ^ 17 := Option.some.inj g3
  rw [← ht]
  unfold Mlx90640Memory.pixel Mlx90640Memory.comp
  simp only [hE, htt, q1, q2, q3, q4, q5, hread, hcontrol, hraw]
  rw [hcontrol] at hpat
  simp only [hpat]

/-- In this memory, pixel 367 is one of those that `C75_camera_640` says something about: it is measured for subpage 0, and
every condition holds; its error is less than 0.09 °C. -/
theorem scene640 : Mlx90640Memory.measured sceneMemory .zero 367 ∧
    (Mlx90640Memory.pixel sceneMemory 1 none .zero 367).Computable (1 / 2 ^ 24) ∧
    (Mlx90640Memory.pixel sceneMemory 1 none .zero 367).temperatureError (1 / 2 ^ 24) ≤ 0.09 := by
  have hcontrol : sceneMemory 0x800D#16 = 0x1901#16 := by decide +kernel
  have hpat : pattern (sceneMemory 0x800D#16) = .chess := by rw [hcontrol]; decide
  have hp := scene_pixel
  generalize ht : Ee640.calibration (eepromWord example640) = t at hp
  have ht := ht.symm
  obtain ⟨⟨e1, e2, e3, e4, e5, e6, e7⟩, ⟨g1, g2, g3, g4, g5⟩, -, p1, p2, p3, p4, p5⟩ := parameters640 t ht
  have hcorr : correction t 0x1901#16 = 1 := by
    unfold correction
    rw [g5]
    exact div_self (by positivity)
  have hT : Datasheet.ambient t readings640 = 136099541231863 / 3473307198907 := by
    unfold Datasheet.ambient Datasheet.deltaV
    rw [e1, e2, e4, e5, e6, e7]; unfold readings640; norm_num
  obtain ⟨hty, hsize⟩ := typical640 t ht le_rfl le_rfl
  obtain ⟨hM, hB⟩ := C74_typical hty
  have hr : Readable t 1 readings640 := by rw [ht]; exact readable640
  rw [hp]
  refine ⟨⟨by norm_num, by rw [hpat]; rfl⟩, ⟨⟨?_, ?_⟩, ⟨?_, ?_⟩, ?_⟩, ?_⟩
  · show Readable t (correction t 0x1901#16) readings640
    rw [hcorr]; exact hr
  · norm_num
  · show 200 ≤ Datasheet.ambient t readings640 + 273.15
    rw [hT]; norm_num
  · show 200 ≤ Datasheet.ambient t readings640 - 8 + 273.15 ∧ Datasheet.ambient t readings640 - 8 + 273.15 ≤ 2 ^ 11
    rw [hT]; norm_num
  · unfold PixelInputs.Measurable PixelInputs.relativeSignalError PixelInputs.relativeSensitivityError
      PixelInputs.relativeRadiationError PixelInputs.signalError PixelInputs.radiation PixelInputs.surroundings
      PixelInputs.sensitivity PixelInputs.ambient PixelInputs.signal pixelSignal
    rw [hcontrol] at hpat
    simp only [hcorr, hpat, Option.getD_none]
    exact hM
  · unfold PixelInputs.temperatureError PixelInputs.relativeSignalError PixelInputs.relativeSensitivityError
      PixelInputs.relativeRadiationError PixelInputs.signalError PixelInputs.radiation PixelInputs.surroundings
      PixelInputs.sensitivity PixelInputs.ambient PixelInputs.signal pixelSignal
    rw [hcontrol] at hpat
    simp only [hcorr, hpat, Option.getD_none]
    exact hB.trans hsize

omit [Binary32 F] in
theorem new_fresh {C : Type} {fromData : List Byte → Res LibErr C} {toCalib : C → Calib F} {b : Bus σ ER EW} {n : Nat} {s s' : σ}
    {addr : Byte} {d : Driver F σ} (h : Driver.new fromData toCalib b n s addr = (s', .ok d)) :
    d.effectiveEmissivity = d.calib.emissivity.getD (lit 1) ∧ d.reflectedTemperature = none := by
  revert h
  unfold Driver.new
  generalize calibFromI2c fromData b s addr = q
  obtain ⟨s1, r⟩ := q
  cases r with
  | err e => intro h; simp at h
  | panic => intro h; simp at h
  | ok c =>
    simp only
    unfold Driver.newWithCalibration
    rw [readControl_eq]
    cases (regRead b s1 addr 0x800D#16).2 with
    | error e => intro h; simp at h
    | ok w =>
      simp only [resolution_val, accessPattern_val]
      intro h
      have h2 := (Prod.mk.inj h).2
      have h2 := Res.ok.inj h2
      subst h2
      exact ⟨rfl, rfl⟩

/-- A camera with this memory, read with correctly rounded operations in a release build: it can be constructed, an image of
subpage 0 can be made, and pixel 367 of the image is within 0.09 °C of the documented temperature. -/
example (dest : List Rounded) (hdest : dest.length = 768) :
    ∃ s' d d' dest' v, Driver.new640 .wrapping (cameraBus 0x33#8) sceneMemory 0x33#8 = (s', .ok d) ∧
      Driver.generateImageSubpageTo ⟨.wrapping, 24, cameraBus 0x33#8⟩ .zero dest d = (d', dest', .ok ()) ∧ dest'[367]? = some v ∧
      Within v (Mlx90640Memory.pixel sceneMemory 1 none .zero 367).temperature 0.09 := by
  have hst := cameraBus_static 0x33#8
  have hreg : Ee640.Regular (eepromOf sceneMemory) := SameEeprom.regular (E := eepromOf (exampleMemory words640)) scene_same example640_regular
  obtain ⟨s', d, hd⟩ := ((C68_construction (F := Rounded) .wrapping _ sceneMemory _ hst).1 (cameraBus_serves _ _)).2 (Or.inl rfl)
  obtain ⟨hmem, c, hc, hcal⟩ := new_static hst hd
  have hok := (C68_healthy_camera_works .wrapping _ _ s' _ d 24 (Or.inl ⟨rfl, hd⟩) hst (cameraBus_serves _ _) (Or.inl rfl) [] d
    .start).2 (.generateImageSubpageTo .zero dest)
  have hok : (discardImage (Driver.generateImageSubpageTo ⟨.wrapping, 24, cameraBus 0x33#8⟩ .zero dest d)).2 = .ok () := hok
  obtain ⟨d', dest', hg⟩ : ∃ d' dest', Driver.generateImageSubpageTo ⟨.wrapping, 24, cameraBus 0x33#8⟩ .zero dest d =
      (d', dest', .ok ()) := by
    revert hok
    generalize Driver.generateImageSubpageTo ⟨.wrapping, 24, cameraBus 0x33#8⟩ .zero dest d = q
    intro hok
    obtain ⟨d', dest', r⟩ := q
    unfold discardImage discard at hok
    cases r with
    | ok u => exact ⟨d', dest', rfl⟩
    | err e => cases hok
    | panic => cases hok
  obtain ⟨hm, hcomp, herr⟩ := scene640
  have key := (C75_camera_640 .wrapping _ sceneMemory s' _ hst d hd hreg [] d .start (fun c hc => nomatch hc) rounded_powers 1 none dest dest' d' (by
      show Is d.effectiveEmissivity 1
      rw [(new_fresh hd).1, hcal]
      exact is_lit (by norm_num) (by simpa using value_int (m := 1) (by norm_num))) (by
      show Option.Rel Is d.reflectedTemperature none
      rw [(new_fresh hd).2]
      exact .none)).2.1 .zero hg
  have hd' : d.bus = sceneMemory := hmem
  simp only [hd', id] at key
  obtain ⟨v, v1, v2⟩ := (key.2.2 367).1 hm hcomp (by omega)
  exact ⟨s', d, d', dest', v, hd, hg, v1, Within.mono v2 herr⟩

end Mlx.Props
