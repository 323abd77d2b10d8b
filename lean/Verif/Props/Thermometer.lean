import Verif.Proofs.Session
/-
C66, second part: from the memory of a camera to the image, through the whole crate.
-/
set_option autoImplicit false
set_option linter.unusedSectionVars false
namespace Mlx.Props
open Mlx Mlx.Spec Mlx.Proofs F32Ops

variable {σ ER EW : Type} {mem : σ → Word → Word}

theorem view_640 (M : Word → Word) (env : Env σ ER EW) (d : Driver ℝ σ) (hs : Supported env d) (h : StaticMemory env.bus d.addr mem)
    (hk : Complete d.calib d.calib.cam.numPixels)
    (hM : ∀ a : Word, 0x0400 ≤ a.toNat → a.toNat < 0x0800 → mem d.bus a = M a) (hc : Caches d (M 0x800D#16))
    (hcal : d.calib = Ee640.calibration (eepromOf M))
    (hv : Fits16 ((M 0x072A#16).toInt - d.calib.vdd25)) (sp : Subpage) (dest dest' : List ℝ) (d' : Driver ℝ σ) :
    let tA := Datasheet.ambient (Ee640.calibration (eepromOf M)) (Mlx90640Memory.readings M sp)
    (Driver.generateRawImageSubpageTo env sp dest d = (d', dest', .ok ()) →
      d'.ambientTemp = some tA ∧
      Drawn (Mlx90640Memory.measured M sp) (Mlx90640Memory.signal M d.effectiveEmissivity sp) dest dest') ∧
    (Driver.generateImageSubpageTo env sp dest d = (d', dest', .ok ()) →
      d'.ambientTemp = some tA ∧
      Drawn (Mlx90640Memory.measured M sp)
        (Mlx90640Memory.temperature M d.effectiveEmissivity d.reflectedTemperature sp) dest dest') := by
  intro tA
  have hcam : d.calib.cam = Mlx90640.cam := by rw [hcal]; rfl
  have hread : frameReadings d.calib.cam sp (mem d.bus) = Mlx90640Memory.readings M sp := by
    rw [hcam]
    unfold frameReadings
    rw [hM _ (by decide) (by decide), hM _ (by decide) (by decide), hM _ (by decide) (by decide),
      hM _ (by decide) (by decide), hM _ (by cases sp <;> decide) (by cases sp <;> decide)]
    cases sp <;> rfl
  have hap : d.accessPattern = pattern (M 0x800D#16) := hc.1.trans (pattern_valueIn _)
  have hrc : d.resCorr = correction (Ee640.calibration (eepromOf M)) (M 0x800D#16) := by
    rw [← hcal]; exact hc.2.trans (correction_eq _ _)
  have hsel : ∀ i, (i < d.calib.cam.numPixels ∧ (d.calib.cam.pixelsInSubpage sp d.accessPattern)[i]? = some true) ↔
      Mlx90640Memory.measured M sp i := by
    intro i
    rw [hcam, show Mlx90640.cam.numPixels = 768 from rfl, hap]
    unfold Mlx90640Memory.measured
    refine and_congr_right fun hi => ?_
    rw [(C12_mlx90640_subpage_partition _).2.1 sp i hi, Option.some.injEq, decide_eq_true_iff]
    unfold Selected640
    cases pattern (M 0x800D#16) <;> exact Iff.rfl
  have hv' : -32768 ≤ (mem d.bus d.calib.cam.vddPixel).toInt - d.calib.vdd25 ∧
      (mem d.bus d.calib.cam.vddPixel).toInt - d.calib.vdd25 ≤ 32767 := by rw [hcam, hM _ (by decide) (by decide)]; exact hv
  have main := fun i => C55_end_to_end env d hs h hk sp dest dest' d' hv' i
  dsimp only at main
  rw [hread, hrc, hcal, hap] at main
  have hem : d.effectiveEmissivity = d.emissivity := rfl
  -- the parameters named in the table
  have hof : ∀ {i o}, i < 768 → ((Ee640.calibration (eepromOf M)).offsetRef sp)[i]? = some o →
      o = Ee640.offset (eepromOf M) i := by
    intro i o hi ho
    exact (Option.some.inj ((table_get (Ee640.offset (eepromOf M)) hi).symm.trans ho)).symm
  have hkv : ∀ {i o}, i < 768 → ((Ee640.calibration (eepromOf M)).kV sp)[i]? = some o →
      o = Ee640.kV (eepromOf M) i := by
    intro i o hi ho
    exact (Option.some.inj ((table_get (Ee640.kV (eepromOf M)) hi).symm.trans ho)).symm
  have hkt : ∀ {i o}, i < 768 → ((Ee640.calibration (eepromOf M)).kTa sp)[i]? = some o →
      o = Ee640.kTa (eepromOf M) i := by
    intro i o hi ho
    exact (Option.some.inj ((table_get (Ee640.kTa (eepromOf M)) hi).symm.trans ho)).symm
  have hal : ∀ {i o}, i < 768 → ((Ee640.calibration (eepromOf M)).alpha sp)[i]? = some o →
      o = Ee640.alpha (eepromOf M) i := by
    intro i o hi ho
    exact (Option.some.inj ((table_get (Ee640.alpha (eepromOf M)) hi).symm.trans ho)).symm
  have hcp : ∀ {i : Nat} {o : Option ℝ}, i < 768 →
      ((Ee640.calibration (eepromOf M)).apComp (pattern (M 0x800D#16)))[i]? = some o →
      o.getD 0 = Mlx90640Memory.comp M i := by
    intro i o hi ho
    unfold Mlx90640Memory.comp
    generalize pattern (M 0x800D#16) = p at ho
    cases p
    · rw [← Option.some.inj ((table_get (fun _ => none) hi).symm.trans ho)]; rfl
    · rw [← Option.some.inj ((table_get (fun i => some (Ee640.interleave (eepromOf M) i)) hi).symm.trans ho)]; rfl
  have hks : ∀ {o}, (Ee640.calibration (eepromOf M)).kSTo[(Ee640.calibration (eepromOf M)).cam.basicRange]? =
      some o → o = (signedAt (eepromOf M 0x243D) 8 8 : ℝ) / 2 ^ (bitsAt (eepromOf M 0x243F) 0 4 + 8) := by
    intro o ho
    exact (Option.some.inj ho).symm
  have hat : ∀ {i address}, PixelAt (Ee640.calibration (eepromOf M)).cam sp i address →
      address = BitVec.ofNat 16 (0x0400 + i) := by
    intro i address hp
    rcases hp with ⟨_, hp⟩ | ⟨hp, _⟩
    · exact hp
    · exact absurd (congrArg Cam.numPixels hp) (show ¬ ((768 : Nat) = 192) by decide)
  have hpx : ∀ {i}, i < 768 → mem d.bus (BitVec.ofNat 16 (0x0400 + i)) = M (BitVec.ofNat 16 (0x0400 + i)) := by
    intro i hi
    have e : (BitVec.ofNat 16 (0x0400 + i)).toNat = 0x0400 + i := by
      rw [BitVec.toNat_ofNat, Nat.mod_eq_of_lt (by omega)]
    exact hM _ (by omega) (by omega)
  rw [hcal, hap] at hsel
  constructor
  · intro hg
    refine ⟨((main 0).1 hg).2.1, ((main 0).1 hg).1, fun i => ⟨fun hm hi => ?_, fun hm => ?_⟩⟩
    · obtain ⟨address, offset, kV, kTa, comp, p1, p2, p3, p4, p5, p6⟩ := ((main i).1 hg).2.2.2 ((hsel i).2 hm) hi
      rw [p6, hof hm.1 p2, hkv hm.1 p3, hkt hm.1 p4, hcp hm.1 p5, hat p1, hpx hm.1]
      rfl
    · exact ((main i).1 hg).2.2.1 fun hn => hm ((hsel i).1 hn)
  · intro hg
    refine ⟨((main 0).2 hg).2.1, ((main 0).2 hg).1, fun i => ⟨fun hm hi => ?_, fun hm => ?_⟩⟩
    · obtain ⟨address, offset, kV, kTa, comp, alpha, kSTo, p1, p2, p3, p4, p5, p7, p8, p6⟩ :=
        ((main i).2 hg).2.2.2 ((hsel i).2 hm) hi
      rw [p6, hof hm.1 p2, hkv hm.1 p3, hkt hm.1 p4, hcp hm.1 p5, hat p1, hpx hm.1, hal hm.1 p7, hks p8]
      have h8 : ((Ee640.calibration (eepromOf M)).cam.selfHeating : ℝ) = 8 := by
        show ((8 : Rat) : ℝ) = 8; norm_num
      unfold Mlx90640Memory.temperature pixelTemperature
      rw [h8]
      rfl
    · exact ((main i).2 hg).2.2.1 fun hn => hm ((hsel i).1 hn)

/-- The same for the memory as it is. -/
theorem image_640 (env : Env σ ER EW) (d : Driver ℝ σ) (hs : Supported env d) (h : StaticMemory env.bus d.addr mem)
    (hk : Complete d.calib d.calib.cam.numPixels) (hc : Caches d (mem d.bus 0x800D#16))
    (hcal : d.calib = Ee640.calibration (eepromOf (mem d.bus)))
    (hv : Fits16 ((mem d.bus 0x072A#16).toInt - d.calib.vdd25)) (sp : Subpage) (dest dest' : List ℝ) (d' : Driver ℝ σ) :
    let M := mem d.bus
    let tA := Datasheet.ambient (Ee640.calibration (eepromOf M)) (Mlx90640Memory.readings M sp)
    (Driver.generateRawImageSubpageTo env sp dest d = (d', dest', .ok ()) →
      d'.ambientTemp = some tA ∧
      Drawn (Mlx90640Memory.measured M sp) (Mlx90640Memory.signal M d.effectiveEmissivity sp) dest dest') ∧
    (Driver.generateImageSubpageTo env sp dest d = (d', dest', .ok ()) →
      d'.ambientTemp = some tA ∧
      Drawn (Mlx90640Memory.measured M sp)
        (Mlx90640Memory.temperature M d.effectiveEmissivity d.reflectedTemperature sp) dest dest') :=
  view_640 (mem d.bus) env d hs h hk (fun _ _ _ => rfl) hc hcal hv sp dest dest' d'

theorem view_641 (M : Word → Word) (D : Nat → BitVec 11) (env : Env σ ER EW) (d : Driver ℝ σ) (hs : Supported env d) (h : StaticMemory env.bus d.addr mem)
    (hk : Complete d.calib d.calib.cam.numPixels)
    (hM : ∀ a : Word, 0x0400 ≤ a.toNat → a.toNat < 0x0800 → mem d.bus a = M a) (hc : Caches d (M 0x800D#16))
    (hcal : d.calib = Ee641.calibration D)
    (hv : Fits16 ((M 0x05AA#16).toInt - d.calib.vdd25)) (sp : Subpage) (dest dest' : List ℝ) (d' : Driver ℝ σ) :
    let tA := Datasheet.ambient (Ee641.calibration D) (Mlx90641Memory.readings M sp)
    (Driver.generateRawImageSubpageTo env sp dest d = (d', dest', .ok ()) →
      d'.ambientTemp = some tA ∧
      Drawn (fun i => i < 192) (Mlx90641Memory.signal M D d.effectiveEmissivity sp) dest dest') ∧
    (Driver.generateImageSubpageTo env sp dest d = (d', dest', .ok ()) →
      d'.ambientTemp = some tA ∧
      Drawn (fun i => i < 192)
        (Mlx90641Memory.temperature M D d.effectiveEmissivity d.reflectedTemperature sp) dest dest') := by
  intro tA
  have hcam : d.calib.cam = Mlx90641.cam := by rw [hcal]; rfl
  have hread : frameReadings d.calib.cam sp (mem d.bus) = Mlx90641Memory.readings M sp := by
    rw [hcam]
    unfold frameReadings
    rw [hM _ (by decide) (by decide), hM _ (by decide) (by decide), hM _ (by decide) (by decide),
      hM _ (by decide) (by decide), hM _ (by cases sp <;> decide) (by cases sp <;> decide)]
    cases sp <;> rfl
  have hap : d.accessPattern = pattern (M 0x800D#16) := hc.1.trans (pattern_valueIn _)
  have hrc : d.resCorr = correction (Ee641.calibration D) (M 0x800D#16) := by
    rw [← hcal]; exact hc.2.trans (correction_eq _ _)
  have hsel : ∀ i, (i < d.calib.cam.numPixels ∧ (d.calib.cam.pixelsInSubpage sp d.accessPattern)[i]? = some true) ↔
      i < 192 := by
    intro i
    rw [hcam, show Mlx90641.cam.numPixels = 192 from rfl]
    exact ⟨fun h => h.1, fun hi => ⟨hi, (C13_mlx90641_full_subpages sp _).2 i hi⟩⟩
  have hv' : -32768 ≤ (mem d.bus d.calib.cam.vddPixel).toInt - d.calib.vdd25 ∧
      (mem d.bus d.calib.cam.vddPixel).toInt - d.calib.vdd25 ≤ 32767 := by rw [hcam, hM _ (by decide) (by decide)]; exact hv
  have main := fun i => C55_end_to_end env d hs h hk sp dest dest' d' hv' i
  dsimp only at main
  rw [hread, hrc, hcal, hap] at main
  have hem : d.effectiveEmissivity = d.emissivity := rfl
  -- the parameters named in the table
  have hof : ∀ {i o}, i < 192 → ((Ee641.calibration D).offsetRef sp)[i]? = some o →
      o = Ee641.offset D sp i := by
    intro i o hi ho
    exact (Option.some.inj ((table_get (Ee641.offset D sp) hi).symm.trans ho)).symm
  have hkv : ∀ {i o}, i < 192 → ((Ee641.calibration D).kV sp)[i]? = some o →
      o = Ee641.kV D i := by
    intro i o hi ho
    exact (Option.some.inj ((table_get (Ee641.kV D) hi).symm.trans ho)).symm
  have hkt : ∀ {i o}, i < 192 → ((Ee641.calibration D).kTa sp)[i]? = some o →
      o = Ee641.kTa D i := by
    intro i o hi ho
    exact (Option.some.inj ((table_get (Ee641.kTa D) hi).symm.trans ho)).symm
  have hal : ∀ {i o}, i < 192 → ((Ee641.calibration D).alpha sp)[i]? = some o →
      o = Ee641.alpha D i := by
    intro i o hi ho
    exact (Option.some.inj ((table_get (Ee641.alpha D) hi).symm.trans ho)).symm
  have hcp : ∀ {i : Nat} {o : Option ℝ}, i < 192 →
      ((Ee641.calibration D).apComp (pattern (M 0x800D#16)))[i]? = some o →
      o.getD 0 = 0 := by
    intro i o hi ho
    rw [← Option.some.inj ((table_get (fun _ => none) hi).symm.trans ho)]; rfl
  have hks : ∀ {o}, (Ee641.calibration D).kSTo[(Ee641.calibration D).cam.basicRange]? =
      some o → o = ((D 0x2437).toInt : ℝ) / 2 ^ (D 0x2434).toNat := by
    intro o ho
    exact (Option.some.inj ho).symm
  have hat : ∀ {i address}, PixelAt (Ee641.calibration D).cam sp i address →
      address = Mlx90641Memory.address sp i := by
    intro i address hp
    rcases hp with ⟨hp, _⟩ | ⟨_, hp⟩
    · exact absurd (congrArg Cam.numPixels hp) (show ¬ ((192 : Nat) = 768) by decide)
    · exact hp
  have hpx : ∀ {i}, i < 192 → mem d.bus (Mlx90641Memory.address sp i) = M (Mlx90641Memory.address sp i) := by
    intro i hi
    have hsp : sp.toNat ≤ 1 := by cases sp <;> decide
    have e : (Mlx90641Memory.address sp i).toNat = 0x0400 + 64 * (i / 32) + 32 * sp.toNat + i % 32 := by
      unfold Mlx90641Memory.address
      rw [BitVec.toNat_ofNat, Nat.mod_eq_of_lt (by omega)]
    exact hM _ (by omega) (by omega)
  rw [hcal, hap] at hsel
  constructor
  · intro hg
    refine ⟨((main 0).1 hg).2.1, ((main 0).1 hg).1, fun i => ⟨fun hm hi => ?_, fun hm => ?_⟩⟩
    · obtain ⟨address, offset, kV, kTa, comp, p1, p2, p3, p4, p5, p6⟩ := ((main i).1 hg).2.2.2 ((hsel i).2 hm) hi
      rw [p6, hof hm p2, hkv hm p3, hkt hm p4, hcp hm p5, hat p1, hpx hm]
      rfl
    · exact ((main i).1 hg).2.2.1 fun hn => hm ((hsel i).1 hn)
  · intro hg
    refine ⟨((main 0).2 hg).2.1, ((main 0).2 hg).1, fun i => ⟨fun hm hi => ?_, fun hm => ?_⟩⟩
    · obtain ⟨address, offset, kV, kTa, comp, alpha, kSTo, p1, p2, p3, p4, p5, p7, p8, p6⟩ :=
        ((main i).2 hg).2.2.2 ((hsel i).2 hm) hi
      rw [p6, hof hm p2, hkv hm p3, hkt hm p4, hcp hm p5, hat p1, hpx hm, hal hm p7, hks p8]
      have h5 : ((Ee641.calibration D).cam.selfHeating : ℝ) = 5 := by
        show ((5 : Rat) : ℝ) = 5; norm_num
      unfold Mlx90641Memory.temperature pixelTemperature
      rw [h5]
      rfl
    · exact ((main i).2 hg).2.2.1 fun hn => hm ((hsel i).1 hn)

/-- The same for the memory as it is. -/
theorem image_641 (D : Nat → BitVec 11) (env : Env σ ER EW) (d : Driver ℝ σ) (hs : Supported env d) (h : StaticMemory env.bus d.addr mem)
    (hk : Complete d.calib d.calib.cam.numPixels) (hc : Caches d (mem d.bus 0x800D#16))
    (hcal : d.calib = Ee641.calibration D)
    (hv : Fits16 ((mem d.bus 0x05AA#16).toInt - d.calib.vdd25)) (sp : Subpage) (dest dest' : List ℝ) (d' : Driver ℝ σ) :
    let M := mem d.bus
    let tA := Datasheet.ambient (Ee641.calibration D) (Mlx90641Memory.readings M sp)
    (Driver.generateRawImageSubpageTo env sp dest d = (d', dest', .ok ()) →
      d'.ambientTemp = some tA ∧
      Drawn (fun i => i < 192) (Mlx90641Memory.signal M D d.effectiveEmissivity sp) dest dest') ∧
    (Driver.generateImageSubpageTo env sp dest d = (d', dest', .ok ()) →
      d'.ambientTemp = some tA ∧
      Drawn (fun i => i < 192)
        (Mlx90641Memory.temperature M D d.effectiveEmissivity d.reflectedTemperature sp) dest dest') :=
  view_641 (mem d.bus) D env d hs h hk (fun _ _ _ => rfl) hc hcal hv sp dest dest' d'

/-- The two methods that choose the subpage themselves make the image of the subpage named in the status register. -/
theorem ifReady_reduces {F : Type} [F32Ops F] (env : Env σ ER EW) (d : Driver F σ) (h : StaticMemory env.bus d.addr mem) (dest dest' : List F)
    (d' : Driver F σ) (hg : Driver.generateImageIfReady env dest d = (d', dest', .ok true)) :
    (mem d.bus 0x8000#16).getLsbD 3 = true ∧ ∃ s1 d2, mem s1 = mem d.bus ∧ d'.ambientTemp = d2.ambientTemp ∧
      Driver.generateImageSubpageTo env (statusSubpage (mem d.bus 0x8000#16)) dest { d with bus := s1 } =
        (d2, dest', .ok ()) := by
  rw [ifReady_eq] at hg
  obtain ⟨hr, hv⟩ := static_regRead h d.bus 0x8000#16
  generalize regRead env.bus d.bus d.addr 0x8000#16 = q at hr hv hg
  obtain ⟨s1, e | w⟩ := q
  · simp at hg
  · have hw : w = mem d.bus 0x8000#16 := hv w rfl
    simp only at hr hg
    rw [hw] at hg
    by_cases h3 : (mem d.bus 0x8000#16).getLsbD 3 = true
    · rw [if_pos h3] at hg
      refine ⟨h3, s1, ?_⟩
      unfold statusSubpage
      cases hi : Driver.generateImageSubpageTo env (if (mem d.bus 0x8000#16).getLsbD 0 then .one else .zero) dest
          { d with bus := s1 } with
      | mk d2 rest =>
        obtain ⟨dest2, r⟩ := rest
        rw [hi] at hg
        cases r with
        | err e => simp at hg
        | panic => simp at hg
        | ok u =>
          simp only [Prod.mk.injEq] at hg
          obtain ⟨rfl, rfl, _⟩ := hg
          exact ⟨d2, hr, rfl, rfl⟩
    · rw [if_neg h3] at hg
      simp at hg

theorem imageTo_reduces {F : Type} [F32Ops F] (env : Env σ ER EW) (d : Driver F σ) (h : StaticMemory env.bus d.addr mem) (dest dest' : List F)
    (d' : Driver F σ) (hg : Driver.generateImageTo env dest d = (d', dest', .ok ())) :
    ∃ s1, mem s1 = mem d.bus ∧
      Driver.generateImageSubpageTo env (statusSubpage (mem d.bus 0x8000#16)) dest { d with bus := s1 } =
        (d', dest', .ok ()) := by
  rw [generateImageTo_eq] at hg
  obtain ⟨hr, hv⟩ := static_regRead h d.bus 0x8000#16
  generalize regRead env.bus d.bus d.addr 0x8000#16 = q at hr hv hg
  obtain ⟨s1, e | w⟩ := q
  · simp at hg
  · have hw : w = mem d.bus 0x8000#16 := hv w rfl
    simp only at hr hg
    rw [hw] at hg
    exact ⟨s1, hr, hg⟩

/-- **C66 (MLX90640).** The whole crate, on a camera whose memory is only changed by writes and by its measurements, and with
any bus errors: construct a driver, do anything (without a failing control register write) while the camera measures
between the calls, then make an image. The calibration part of the memory still is what it was. Whenever a method
succeeds, every pixel of the subpage is the documented function of the camera's memory - EEPROM, RAM and control
register - and the user's settings, and the other elements are untouched; the methods that choose the subpage take the
one in the status register. (For EEPROM contents whose documented sums fit 16 bits, a V_DD
reading within 16 bits of its reference, and in exact arithmetic.) -/
theorem C66_camera_640 (m : Mode) (b : Bus σ ER EW) (s s' : σ) (addr : Byte) (h : StaticMemory b addr mem)
    (d : Driver ℝ σ) (hd : Driver.new640 m b s addr = (s', .ok d)) (hreg : Ee640.Regular (eepromOf (mem s)))
    (calls : List (Op ℝ × Res (Err ER EW) Unit)) (d1 : Driver ℝ σ) (hx : Session ⟨m, 24, b⟩ mem anyFrame d calls d1)
    (hn : ∀ c ∈ calls, ¬ ControlWriteFailed c.1 c.2) (dest dest' : List ℝ) (d' : Driver ℝ σ) :
    let env : Env σ ER EW := ⟨m, 24, b⟩
    let M := mem d1.bus
    let E := eepromOf M
    let settled := fun sp => d'.ambientTemp = some (Datasheet.ambient (Ee640.calibration E) (Mlx90640Memory.readings M sp))
    let thermal := fun sp => Drawn (Mlx90640Memory.measured M sp)
      (Mlx90640Memory.temperature M d1.effectiveEmissivity d1.reflectedTemperature sp) dest dest'
    (∀ a, ¬ Volatile a → a ≠ 0x800D#16 → M a = mem s a) ∧
    (Fits16 ((M 0x072A#16).toInt - (Ee640.calibration E).vdd25) →
      (∀ sp, Driver.generateRawImageSubpageTo env sp dest d1 = (d', dest', .ok ()) → settled sp ∧
        Drawn (Mlx90640Memory.measured M sp) (Mlx90640Memory.signal M d1.effectiveEmissivity sp) dest dest') ∧
      (∀ sp, Driver.generateImageSubpageTo env sp dest d1 = (d', dest', .ok ()) → settled sp ∧ thermal sp) ∧
      (Driver.generateImageTo env dest d1 = (d', dest', .ok ()) →
        settled (statusSubpage (M 0x8000#16)) ∧ thermal (statusSubpage (M 0x8000#16))) ∧
      (Driver.generateImageIfReady env dest d1 = (d', dest', .ok true) → (M 0x8000#16).getLsbD 3 = true ∧
        settled (statusSubpage (M 0x8000#16)) ∧ thermal (statusSubpage (M 0x8000#16)))) := by
  intro env M E settled thermal
  obtain ⟨hmem, c, hc, hcal⟩ := new_static h hd
  obtain ⟨hs, ha⟩ := (C39_constructed_drivers_supported m b s addr).1 s' d hd
  have hk := constructed_complete (Or.inl hd)
  have hst : StaticMemory env.bus d.addr mem := by rw [ha]; exact h
  have hca := session_caches hs hst (C47_after_construction m b s s' addr d h (Or.inl hd)) hx hn
  obtain ⟨hs1, ha1, hcal1⟩ := session_supported hs hx
  have hM : ∀ a, ¬ Volatile a → a ≠ 0x800D#16 → M a = mem s a := fun a h1 h2 =>
    (session_memory hs hst hx a h1 h2).trans (by rw [hmem])
  have hsame : SameEeprom (eepromWord (memBytes (mem s) 0x2400#16 1664)) E := by
    intro a h1 h2
    rw [eepromWord_memBytes _ h1 h2]
    exact (hM _ (eeprom_still h1 h2).1 (eeprom_still h1 h2).2).symm
  have hreg' : Ee640.Regular (eepromWord (memBytes (mem s) 0x2400#16 1664)) := by
    refine SameEeprom.regular (E := eepromOf (mem s)) ?_ hreg
    intro a h1 h2
    exact (eepromWord_memBytes _ h1 h2).symm
  have htab : d1.calib = Ee640.calibration E := by
    rw [hcal1, hcal, C66_table_640 m _ c hc hreg']
    exact hsame.calibration
  have hk1 : Complete d1.calib d1.calib.cam.numPixels := by rw [hcal1]; exact hk
  have hst1 : StaticMemory env.bus d1.addr mem := by rw [ha1]; exact hst
  refine ⟨hM, fun hv => ?_⟩
  rw [← htab] at hv
  have key := fun (s1 : σ) (hs2 : mem s1 = M) (sp : Subpage) (d2 : Driver ℝ σ) =>
    image_640 env { d1 with bus := s1 } ⟨hs1.1, hs1.2, hs1.3⟩ hst1 hk1
      (by show Caches d1 (mem s1 0x800D#16); rw [hs2]; exact hca)
      (by show d1.calib = Ee640.calibration (eepromOf (mem s1)); rw [hs2]; exact htab)
      (by show Fits16 ((mem s1 0x072A#16).toInt - d1.calib.vdd25); rw [hs2]; exact hv) sp dest dest' d2
  refine ⟨fun sp hg => (key d1.bus rfl sp d').1 hg, fun sp hg => (key d1.bus rfl sp d').2 hg, fun hg => ?_, fun hg => ?_⟩
  · obtain ⟨s1, h1, h2⟩ := imageTo_reduces env d1 hst1 dest dest' d' hg
    have := (key s1 h1 _ d').2 h2
    dsimp only at this
    rw [h1] at this
    exact this
  · obtain ⟨h3, s1, d2, h1, h4, h2⟩ := ifReady_reduces env d1 hst1 dest dest' d' hg
    have := (key s1 h1 _ d2).2 h2
    dsimp only at this
    rw [h1, ← h4] at this
    exact ⟨h3, this⟩

/-- **C66 (MLX90641).** The same for the MLX90641, whose EEPROM words hold the values `D`, each with at most one wrong
bit. Every subpage has all pixels. -/
theorem C66_camera_641 (m : Mode) (b : Bus σ ER EW) (s s' : σ) (addr : Byte) (h : StaticMemory b addr mem)
    (d : Driver ℝ σ) (hd : Driver.new641 m b s addr = (s', .ok d)) (D : Nat → BitVec 11) (hreg : Ee641.Regular D)
    (hD : ∀ a ∈ Ee641.readAddresses 192, WithinOneBit (eepromOf (mem s) a) (codeword (D a)))
    (calls : List (Op ℝ × Res (Err ER EW) Unit)) (d1 : Driver ℝ σ) (hx : Session ⟨m, 12, b⟩ mem anyFrame d calls d1)
    (hn : ∀ c ∈ calls, ¬ ControlWriteFailed c.1 c.2) (dest dest' : List ℝ) (d' : Driver ℝ σ) :
    let env : Env σ ER EW := ⟨m, 12, b⟩
    let M := mem d1.bus
    let settled := fun sp => d'.ambientTemp = some (Datasheet.ambient (Ee641.calibration D) (Mlx90641Memory.readings M sp))
    let thermal := fun sp => Drawn (fun i => i < 192)
      (Mlx90641Memory.temperature M D d1.effectiveEmissivity d1.reflectedTemperature sp) dest dest'
    (∀ a, ¬ Volatile a → a ≠ 0x800D#16 → M a = mem s a) ∧
    (Fits16 ((M 0x05AA#16).toInt - (Ee641.calibration D).vdd25) →
      (∀ sp, Driver.generateRawImageSubpageTo env sp dest d1 = (d', dest', .ok ()) → settled sp ∧
        Drawn (fun i => i < 192) (Mlx90641Memory.signal M D d1.effectiveEmissivity sp) dest dest') ∧
      (∀ sp, Driver.generateImageSubpageTo env sp dest d1 = (d', dest', .ok ()) → settled sp ∧ thermal sp) ∧
      (Driver.generateImageTo env dest d1 = (d', dest', .ok ()) →
        settled (statusSubpage (M 0x8000#16)) ∧ thermal (statusSubpage (M 0x8000#16))) ∧
      (Driver.generateImageIfReady env dest d1 = (d', dest', .ok true) → (M 0x8000#16).getLsbD 3 = true ∧
        settled (statusSubpage (M 0x8000#16)) ∧ thermal (statusSubpage (M 0x8000#16)))) := by
  intro env M settled thermal
  obtain ⟨hmem, c, hc, hcal⟩ := new_static h hd
  obtain ⟨hs, ha⟩ := (C39_constructed_drivers_supported m b s addr).2 s' d hd
  have hk := constructed_complete (Or.inr hd)
  have hst : StaticMemory env.bus d.addr mem := by rw [ha]; exact h
  have hca := session_caches hs hst (C47_after_construction m b s s' addr d h (Or.inr hd)) hx hn
  obtain ⟨hs1, ha1, hcal1⟩ := session_supported hs hx
  have hM : ∀ a, ¬ Volatile a → a ≠ 0x800D#16 → M a = mem s a := fun a h1 h2 =>
    (session_memory hs hst hx a h1 h2).trans (by rw [hmem])
  have hholds : Ee641.Holds (memBytes (mem s) 0x2400#16 1664) D (Ee641.readAddresses 192) := by
    intro a ha
    have hb := readAddresses_bounds ha
    rw [eepromWord_memBytes _ (by omega) hb.2.1]
    exact hD a ha
  have htab : d1.calib = Ee641.calibration D := by
    rw [hcal1, hcal, C66_table_641 m _ c hc D hholds hreg]
  have hk1 : Complete d1.calib d1.calib.cam.numPixels := by rw [hcal1]; exact hk
  have hst1 : StaticMemory env.bus d1.addr mem := by rw [ha1]; exact hst
  refine ⟨hM, fun hv => ?_⟩
  rw [← htab] at hv
  have key := fun (s1 : σ) (hs2 : mem s1 = M) (sp : Subpage) (d2 : Driver ℝ σ) =>
    image_641 D env { d1 with bus := s1 } ⟨hs1.1, hs1.2, hs1.3⟩ hst1 hk1
      (by show Caches d1 (mem s1 0x800D#16); rw [hs2]; exact hca) htab
      (by show Fits16 ((mem s1 0x05AA#16).toInt - d1.calib.vdd25); rw [hs2]; exact hv) sp dest dest' d2
  refine ⟨fun sp hg => (key d1.bus rfl sp d').1 hg, fun sp hg => (key d1.bus rfl sp d').2 hg, fun hg => ?_, fun hg => ?_⟩
  · obtain ⟨s1, h1, h2⟩ := imageTo_reduces env d1 hst1 dest dest' d' hg
    have := (key s1 h1 _ d').2 h2
    dsimp only at this
    rw [h1] at this
    exact this
  · obtain ⟨h3, s1, d2, h1, h4, h2⟩ := ifReady_reduces env d1 hst1 dest dest' d' hg
    have := (key s1 h1 _ d2).2 h2
    dsimp only at this
    rw [h1, ← h4] at this
    exact ⟨h3, this⟩

end Mlx.Props
