import Verif.Spec.Cold
import Verif.Props.Broken
/-
C113: signals colder than absolute zero become NaN.
-/
set_option linter.unusedSectionVars false
set_option autoImplicit false
namespace Mlx.Props
open Mlx Mlx.Spec Mlx.Proofs F32Ops

section
variable {F : Type} [F32Ops F] [Binary32 F]

theorem near_negative {a : F} {s x e : ℝ} (h : Near a s x e) (hs : 0 < s) (hx : x < -e) : ∃ y, Is a y ∧ y < 0 := by
  obtain ⟨y, h1, h2⟩ := h
  have := abs_le.1 h2
  exact ⟨s * y, h1, mul_neg_of_pos_of_neg hs (by linarith)⟩

/-- A signal colder than absolute zero becomes NaN. -/
theorem frozen_pixel [Binary32NaN F] {v a r k : F} {V α R K ηv ηα ηr δ : ℝ} (hp : AccuratePowers F δ) (hv : Within v V (α * R * ηv))
    (ha : Within a α (α * ηα)) (hr : Within r R (R * ηr)) (hk : Is k K) (h : ColderThanZero V α R K ηv ηα ηr δ) :
    IsNaN (perPixelTemperature v a r k) := by
  have p0 : 0 < α := lt_of_lt_of_le (by norm_num) h.sensitivity.1
  have R0 : 0 < R := lt_of_lt_of_le (by norm_num) h.radiation.1
  have ev : α * R * contrast V α R = V := by unfold contrast; field_simp
  have nv : Near v (α * R) (contrast V α R) ηv := near_of_within (by positivity) (by rw [ev]; exact hv)
  have na : Near a α 1 ηα := near_of_within p0 (by rw [mul_one]; exact ha)
  have nr : Near r R 1 ηr := near_of_within R0 (by rw [mul_one]; exact hr)
  unfold perPixelTemperature
  dsimp only
  apply Binary32NaN.sub_left
  rcases h.cold with h1 | ⟨h1, h2, h3, h4, h5, h6⟩
  · obtain ⟨y, y1, y2⟩ := near_negative (argument_near hp nv na nr h.sensitivity.1 h.sensitivity.2 h.radiation.1 h.radiation.2 h.contrast
      h.errors.1 h.errors.2.1 h.errors.2.2) (by positivity) h1
    have n1 := Binary32NaN.root_negative _ _ y y1 y2 (quarter (F := F))
    refine Binary32NaN.root _ _ (Binary32NaN.add_left _ _ (Binary32NaN.div_right _ _ (Binary32NaN.add_right _ _ ?_))) quarter
    exact Binary32NaN.mul_right _ _ n1
  · obtain ⟨y, y1, y2⟩ := near_negative (second_near hp nv na nr hk h.sensitivity.1 h.sensitivity.2 h.radiation.1 h.radiation.2 h.contrast h1
      h.errors.1 h.errors.2.1 h.errors.2.2 rfl h4 rfl h2 h3 rfl rfl rfl h5).1 R0 h6
    exact Binary32NaN.root_negative _ _ y y1 y2 quarter

end

/-- **C113 (usual scenes).** In a usual scene, one per cent below the signal of absolute zero is enough. -/
theorem C113_usual {p : PixelInputs} (h : p.UsuallyFrozen) {δ : ℝ} (d0 : 0 ≤ δ) (d1 : δ ≤ 1 / 2 ^ 22) : p.Frozen δ := by
  obtain ⟨hu, hc⟩ := h
  obtain ⟨hread, αR, ⟨v0, v1⟩, ⟨a0, a1⟩, e0, e1⟩ := usual_errors hu d0 d1
  have e := hu.emissivity
  have a := hu.ambient
  have u := hu.surroundings
  have ⟨α0, α1⟩ := hu.sensitivity
  have ⟨R0, R1⟩ := hu.radiation
  have αR0 : 0 < p.sensitivity * p.radiation := by linarith
  have c1 : contrast p.signal p.sensitivity p.radiation ≤ -1.01 := by
    unfold contrast
    rw [div_le_iff₀ αR0]
    exact hc
  have c2 : |contrast p.signal p.sensitivity p.radiation| ≤ 54 := by
    have hs := signal_bound (t := p.table) hu.pixel hu.gain.2.2 hu.ambient hu.supply.2 hu.emissivity.1
    have hs2 := signal_bound (t := p.table) hu.compensation hu.gain.2.2 hu.ambient hu.supply.2 hu.emissivity.1
    have hsig : |p.signal| ≤ 2 * 12868 := by
      refine (abs_sub _ _).trans ?_
      rw [abs_mul]
      have := mul_le_mul hu.gradient hs2 (abs_nonneg _) zero_le_one
      linarith
    unfold contrast
    rw [abs_div, abs_of_pos αR0, div_le_iff₀ αR0]
    linarith
  refine ⟨⟨hread, ?_, ?_⟩, ⟨by linarith, by linarith, by linarith⟩, ⟨le_trans (by norm_num) α0, α1⟩, ⟨le_trans (by norm_num) R0,
    R1.trans (by norm_num)⟩, c2.trans (by norm_num), ⟨v1.trans (by norm_num), a1.trans (by norm_num), e1.trans (by norm_num)⟩, Or.inl ?_⟩
  · exact le_trans (le_trans (by norm_num) e.1) (le_abs_self _)
  · rw [abs_of_nonneg (by linarith)]
    exact e.2.trans (by norm_num)
  · unfold firstMargin
    rw [abs_of_neg (by linarith)]
    generalize contrast p.signal p.sensitivity p.radiation = c at *
    have m1 : (1 + -c) * (p.relativeSensitivityError + δ) ≤ (1 + -c) * (72 / 10 ^ 7 + 1 / 2 ^ 22) := by
      refine mul_le_mul_of_nonneg_left (add_le_add a1 d1) (by linarith)
    norm_num at m1 v1 e1 ⊢
    linarith

section
variable {F : Type} [F32Ops F] [Binary32 F]

/-- The claim of C113 for one conversion, in the terms of C74. -/
def TemperatureLost (m : Mode) (k : Calib F) (t : Calib ℝ) (δ : ℝ) : Prop :=
  ∀ (r : RamData) (actual : Resolution) (em : F) (ε : ℝ) (tR : Option F) (given : Option ℝ) (pixels : List Byte)
    (s : Subpage) (a : AccessPattern) (valid : List Bool) (dest out : List F) (tA : F),
    let ρ : ℝ := 2 ^ CtrlField.resolution.code t.resolution / 2 ^ CtrlField.resolution.code actual
    let T := Datasheet.ambient t r
    let S := given.getD (T - t.cam.selfHeating)
    Readable t ρ r → Is em ε → 1 / 2 ^ 20 ≤ |ε| → |ε| ≤ 2 ^ 20 → Option.Rel Is tR given →
    200 ≤ T + 273.15 → 200 ≤ S + 273.15 → S + 273.15 ≤ 2 ^ 11 →
    rawPixelsToTemperatures (ε := Unit) m k em tR (resolutionCorrection k.resolution actual) pixels r s a valid dest =
      .ok (tA, out) →
    ∀ (i : Nat) (hi lo : Byte) (offset : Int) (kV kTa alpha K : ℝ) (comp : Option ℝ),
      valid[i]? = some true → i < dest.length → pixels[2 * i]? = some hi → pixels[2 * i + 1]? = some lo →
      (t.offsetRef s)[i]? = some offset → (t.kV s)[i]? = some kV → (t.kTa s)[i]? = some kTa →
      (t.alpha s)[i]? = some alpha → (t.apComp a)[i]? = some comp → t.kSTo[t.cam.basicRange]? = some K →
      let V := Datasheet.compensatedSignal t ρ ε r s a (be16 hi lo).toInt offset kV kTa (comp.getD 0)
      let α := Datasheet.sensitivity t r s alpha
      let R := Datasheet.reflected T S ε
      let ηv := compensatedError t ρ ε r s a (be16 hi lo).toInt offset kV kTa (comp.getD 0) / (α * R)
      let ηα := sensitivityError t r s alpha
      let ηr := reflectedError δ ε T (ambientError t r) S (surroundingsError (ambientError t r) given)
      ColderThanZero V α R K ηv ηα ηr δ → ∃ v : F, out[i]? = some v ∧ IsNaN v

theorem temperature_lost [Binary32NaN F] (m : Mode) {k : Calib F} {t : Calib ℝ} {δ : ℝ} (hp : AccuratePowers F δ) (hk : ExactTable k t)
    (hs : Scaled t) (hz : Sized t) (hq : Tempered t) (h0 : Within k.vdd0 3.3 (3.3 / 2 ^ 24))
    (hα : ∀ s, List.Forall₂ (fun a x => Within a x (|x| / 2 ^ 22)) (k.alpha s) (t.alpha s)) :
    TemperatureLost m k t δ := by
  intro r actual em ε tR given pixels s a valid dest out tA ρ T S hr hem ε0 ε1 hgiven hT hS0 hS1 h i hi lo offset kV kTa alpha K
    comp hv hd hhi hlo hof hkv hkt hal hap hK V α R ηv ηα ηr hM
  obtain ⟨v, al, rad, κ, h1, h2, h3, h4, h5⟩ := temperature_inputs m hp hk hs hz hq h0 hα r actual em ε tR given pixels s a valid
    dest out tA hr hem ε0 ε1 hgiven hT hS0 hS1 h i hi lo offset kV kTa alpha K comp hv hd hhi hlo hof hkv hkt hal hap hK hM.sensitivity
    hM.radiation.1 hM.errors.2.1
  exact ⟨_, h1, frozen_pixel hp h2 h3 h4 h5 hM⟩
end

section
variable {F σ ER EW : Type} [F32Ops F] [Binary32 F] {mem : σ → Word → Word}

theorem lost_640 (env : Env σ ER EW) (d : Driver F σ) (hs : Supported env d) (h : StaticMemory env.bus d.addr mem)
    (hc : Caches d (mem d.bus 0x800D#16)) {δ : ℝ} (hcam : d.calib.cam = Mlx90640.cam)
    (h3 : TemperatureLost env.mode d.calib (Ee640.calibration (eepromOf (mem d.bus))) δ)
    (em : ℝ) (given : Option ℝ) (hem : Is d.effectiveEmissivity em) (hgiven : Option.Rel Is d.reflectedTemperature given)
    (sp : Subpage) (dest dest' : List F) (d' : Driver F σ) (i : Nat) (hi : i < dest.length)
    (hm : Mlx90640Memory.measured (mem d.bus) sp i) (hf : (Mlx90640Memory.pixel (mem d.bus) em given sp i).Frozen δ)
    (hg : Driver.generateImageSubpageTo env sp dest d = (d', dest', .ok ())) : ∃ v, dest'[i]? = some v ∧ IsNaN v := by
  have hread : frameReadings d.calib.cam sp (mem d.bus) = Mlx90640Memory.readings (mem d.bus) sp := by
    rw [hcam]; cases sp <;> rfl
  have hap : d.accessPattern = pattern (mem d.bus 0x800D#16) := hc.1.trans (pattern_valueIn _)
  have hrc : d.resCorr = resolutionCorrection d.calib.resolution (CtrlField.resolution.valueIn (mem d.bus 0x800D#16)) := hc.2
  have hsel : i < d.calib.cam.numPixels ∧ (d.calib.cam.pixelsInSubpage sp d.accessPattern)[i]? = some true := by
    rw [hcam, show Mlx90640.cam.numPixels = 768 from rfl, hap]
    refine ⟨hm.1, ?_⟩
    have hm2 := hm.2
    rw [(C12_mlx90640_subpage_partition _).2.1 sp i hm.1, Option.some.injEq, decide_eq_true_iff]
    unfold Selected640
    revert hm2
    cases pattern (mem d.bus 0x800D#16) <;> exact id
  have hat : ∀ {i address}, PixelAt d.calib.cam sp i address → address = BitVec.ofNat 16 (0x0400 + i) := by
    intro i address hp
    rw [hcam] at hp
    rcases hp with ⟨_, hp⟩ | ⟨hp, _⟩
    · exact hp
    · exact absurd (congrArg Cam.numPixels hp) (show ¬ ((768 : Nat) = 192) by decide)
  have hcomp : ∃ o : Option ℝ, ((Ee640.calibration (eepromOf (mem d.bus))).apComp (pattern (mem d.bus 0x800D#16)))[i]? = some o ∧
      o.getD 0 = Mlx90640Memory.comp (mem d.bus) i := by
    unfold Mlx90640Memory.comp
    generalize pattern (mem d.bus 0x800D#16) = q
    cases q
    · exact ⟨_, table_get (fun _ => none) hm.1, rfl⟩
    · exact ⟨_, table_get (fun i => some (Ee640.interleave (eepromOf (mem d.bus)) i)) hm.1, rfl⟩
  have hword : ∀ w : Word, be16 (hiByte w) (loByte w) = w := fun _ => be16_toBe _
  obtain ⟨px, tA, hpx, hconv, hamb, -⟩ := (C55_frame_of_memory env d hs h sp dest dest' d').1 hg
  unfold toTemperatures at hconv
  have hconv' := temps_error (ε' := Unit) hconv
  rw [hread, hrc] at hconv'
  obtain ⟨address, ht, hhi, hlo⟩ := hpx i hsel.1 hsel.2
  obtain rfl := hat ht
  obtain ⟨o, ho, ho'⟩ := hcomp
  obtain ⟨hev, hwarm, hcold⟩ := hf
  have h8 : ((Ee640.calibration (eepromOf (mem d.bus))).cam.selfHeating : ℝ) = 8 := by
    show ((8 : Rat) : ℝ) = 8; norm_num
  have key := h3 (Mlx90640Memory.readings (mem d.bus) sp) (CtrlField.resolution.valueIn (mem d.bus 0x800D#16)) d.emissivity em d.reflected
    given px sp d.accessPattern (d.calib.cam.pixelsInSubpage sp d.accessPattern) dest dest' tA
  dsimp only at key
  rw [ratio_correction, h8] at key
  have := key hev.readable hem hev.emissivity.1 hev.emissivity.2 hgiven hwarm.sensor hwarm.surroundings.1
    hwarm.surroundings.2 hconv' i _ _ _ _ _ _ _ o hsel.2 hi hhi hlo
    (table_get _ hm.1) (table_get _ hm.1) (table_get _ hm.1) (table_get _ hm.1) (by rw [hap]; exact ho) rfl
  rw [ho', hap, hword] at this
  exact this hcold

theorem lost_641 (D : Nat → BitVec 11) (env : Env σ ER EW) (d : Driver F σ) (hs : Supported env d) (h : StaticMemory env.bus d.addr mem)
    (hc : Caches d (mem d.bus 0x800D#16)) {δ : ℝ} (hcam : d.calib.cam = Mlx90641.cam)
    (h3 : TemperatureLost env.mode d.calib (Ee641.calibration D) δ)
    (em : ℝ) (given : Option ℝ) (hem : Is d.effectiveEmissivity em) (hgiven : Option.Rel Is d.reflectedTemperature given)
    (sp : Subpage) (dest dest' : List F) (d' : Driver F σ) (i : Nat) (hi : i < dest.length)
    (hm : i < 192) (hf : (Mlx90641Memory.pixel (mem d.bus) D em given sp i).Frozen δ)
    (hg : Driver.generateImageSubpageTo env sp dest d = (d', dest', .ok ())) : ∃ v, dest'[i]? = some v ∧ IsNaN v := by
  have hread : frameReadings d.calib.cam sp (mem d.bus) = Mlx90641Memory.readings (mem d.bus) sp := by
    rw [hcam]; cases sp <;> rfl
  have hap : d.accessPattern = pattern (mem d.bus 0x800D#16) := hc.1.trans (pattern_valueIn _)
  have hrc : d.resCorr = resolutionCorrection d.calib.resolution (CtrlField.resolution.valueIn (mem d.bus 0x800D#16)) := hc.2
  have hsel : i < d.calib.cam.numPixels ∧ (d.calib.cam.pixelsInSubpage sp d.accessPattern)[i]? = some true := by
    rw [hcam, show Mlx90641.cam.numPixels = 192 from rfl]
    exact ⟨hm, (C13_mlx90641_full_subpages sp _).2 i hm⟩
  have hword : ∀ w : Word, be16 (hiByte w) (loByte w) = w := fun _ => be16_toBe _
  have hat : ∀ {i address}, PixelAt d.calib.cam sp i address → address = Mlx90641Memory.address sp i := by
    intro i address hp
    rw [hcam] at hp
    rcases hp with ⟨hp, _⟩ | ⟨_, hp⟩
    · exact absurd (congrArg Cam.numPixels hp) (show ¬ ((192 : Nat) = 768) by decide)
    · exact hp
  have hcomp : ∀ i, i < 192 → ∃ o : Option ℝ,
      ((Ee641.calibration D).apComp (pattern (mem d.bus 0x800D#16)))[i]? = some o ∧ o.getD 0 = 0 := by
    intro i hi
    exact ⟨_, table_get (fun _ => none) hi, rfl⟩
  obtain ⟨px, tA, hpx, hconv, hamb, -⟩ := (C55_frame_of_memory env d hs h sp dest dest' d').1 hg
  unfold toTemperatures at hconv
  have hconv' := temps_error (ε' := Unit) hconv
  rw [hread, hrc] at hconv'
  obtain ⟨address, ht, hhi, hlo⟩ := hpx i hsel.1 hsel.2
  obtain rfl := hat ht
  obtain ⟨o, ho, ho'⟩ := hcomp i hm
  obtain ⟨hev, hwarm, hcold⟩ := hf
  have h5 : ((Ee641.calibration D).cam.selfHeating : ℝ) = 5 := by
    show ((5 : Rat) : ℝ) = 5; norm_num
  have key := h3 (Mlx90641Memory.readings (mem d.bus) sp) (CtrlField.resolution.valueIn (mem d.bus 0x800D#16)) d.emissivity em d.reflected
    given px sp d.accessPattern (d.calib.cam.pixelsInSubpage sp d.accessPattern) dest dest' tA
  dsimp only at key
  rw [ratio_correction, h5] at key
  have := key hev.readable hem hev.emissivity.1 hev.emissivity.2 hgiven hwarm.sensor hwarm.surroundings.1
    hwarm.surroundings.2 hconv' i _ _ _ _ _ _ _ o hsel.2 hi hhi hlo
    (table_get _ hm) (table_get _ hm) (table_get _ hm) (table_get _ hm) (by rw [hap]; exact ho) rfl
  rw [ho', hap, hword] at this
  exact this hcold

/-- **C113 (MLX90640).** In the setting of C75: a measured pixel whose signal is colder than absolute zero shows NaN in a thermal image. -/
theorem C113_camera_640 [Binary32NaN F] (m : Mode) (b : Bus σ ER EW) (s s' : σ) (addr : Byte) (h : StaticMemory b addr mem)
    (d : Driver F σ) (hd : Driver.new640 m b s addr = (s', .ok d)) (hreg : Ee640.Regular (eepromOf (mem s)))
    (calls : List (Op F × Res (Err ER EW) Unit)) (d1 : Driver F σ) (hx : Session ⟨m, 24, b⟩ mem anyFrame d calls d1)
    (hn : ∀ c ∈ calls, ¬ ControlWriteFailed c.1 c.2) {δ : ℝ} (hp : AccuratePowers F δ) (em : ℝ)
    (given : Option ℝ) (dest dest' : List F) (d' : Driver F σ) (i : Nat) (hi : i < dest.length) :
    let env : Env σ ER EW := ⟨m, 24, b⟩
    let M := mem d1.bus
    let right := fun sp => Mlx90640Memory.measured M sp i → (Mlx90640Memory.pixel M em given sp i).Frozen δ →
      ∃ v, dest'[i]? = some v ∧ IsNaN v
    Is d1.effectiveEmissivity em → Option.Rel Is d1.reflectedTemperature given →
    (∀ sp, Driver.generateImageSubpageTo env sp dest d1 = (d', dest', .ok ()) → right sp) ∧
    (Driver.generateImageTo env dest d1 = (d', dest', .ok ()) → right (statusSubpage (M 0x8000#16))) ∧
    (Driver.generateImageIfReady env dest d1 = (d', dest', .ok true) → right (statusSubpage (M 0x8000#16))) := by
  intro env M right hem hgiven
  obtain ⟨hmem, c, hc, hcal⟩ := new_static h hd
  obtain ⟨hs, ha⟩ := (C39_constructed_drivers_supported m b s addr).1 s' d hd
  have hst : StaticMemory env.bus d.addr mem := by rw [ha]; exact h
  have hca := session_caches hs hst (C47_after_construction m b s s' addr d h (Or.inl hd)) hx hn
  obtain ⟨hs1, ha1, hcal1⟩ := session_supported hs hx
  have hM : ∀ a, ¬ Volatile a → a ≠ 0x800D#16 → M a = mem s a := fun a h1 h2 =>
    (session_memory hs hst hx a h1 h2).trans (by rw [hmem])
  have hsame : SameEeprom (eepromWord (memBytes (mem s) 0x2400#16 1664)) (eepromOf M) := by
    intro a h1 h2
    rw [eepromWord_memBytes _ h1 h2]
    exact (hM _ (eeprom_still h1 h2).1 (eeprom_still h1 h2).2).symm
  have hreg' : Ee640.Regular (eepromWord (memBytes (mem s) 0x2400#16 1664)) := by
    refine SameEeprom.regular (E := eepromOf (mem s)) ?_ hreg
    intro a h1 h2
    exact (eepromWord_memBytes _ h1 h2).symm
  have hcc : d1.calib = c.toCalib := hcal1.trans hcal
  have acc : TemperatureLost m d1.calib (Ee640.calibration (eepromOf M)) δ := by
    rw [hcc, ← hsame.calibration]
    obtain ⟨h1, h2, h3⟩ := C69_exact_640 m _ c hc hreg'
    refine temperature_lost m hp h1 (scaled640 _) (sized640 _ hreg') (tempered640 _ hreg') h3 fun s => (h2 s).imp fun a x h => ?_
    exact Within.mono (Is.within h) (by positivity)
  have hst1 : StaticMemory env.bus d1.addr mem := by rw [ha1]; exact hst
  have key := fun (s1 : σ) (hs2 : mem s1 = M) (sp : Subpage) (d2 : Driver F σ) (hm : Mlx90640Memory.measured M sp i)
      (hf : (Mlx90640Memory.pixel M em given sp i).Frozen δ) =>
    lost_640 env { d1 with bus := s1 } ⟨hs1.1, hs1.2, hs1.3⟩ hst1
      (by show Caches d1 (mem s1 0x800D#16); rw [hs2]; exact hca) (δ := δ) (by show d1.calib.cam = _; rw [hcc]; rfl)
      (by show TemperatureLost m d1.calib (Ee640.calibration (eepromOf (mem s1))) δ; rw [hs2]; exact acc)
      em given hem hgiven sp dest dest' d2 i hi (by show Mlx90640Memory.measured (mem s1) sp i; rw [hs2]; exact hm)
      (by show (Mlx90640Memory.pixel (mem s1) em given sp i).Frozen δ; rw [hs2]; exact hf)
  refine ⟨fun sp hg hm hf => key d1.bus rfl sp d' hm hf hg, fun hg hm hf => ?_, fun hg hm hf => ?_⟩
  · obtain ⟨s1, h1, h2⟩ := imageTo_reduces env d1 hst1 dest dest' d' hg
    exact key s1 h1 _ d' hm hf h2
  · obtain ⟨h3, s1, d2, h1, h4, h2⟩ := ifReady_reduces env d1 hst1 dest dest' d' hg
    exact key s1 h1 _ d2 hm hf h2

/-- **C113 (MLX90641).** The same for the MLX90641. -/
theorem C113_camera_641 [Binary32NaN F] (m : Mode) (b : Bus σ ER EW) (s s' : σ) (addr : Byte) (h : StaticMemory b addr mem)
    (d : Driver F σ) (hd : Driver.new641 m b s addr = (s', .ok d)) (D : Nat → BitVec 11) (hreg : Ee641.Regular D)
    (hD : ∀ a ∈ Ee641.readAddresses 192, WithinOneBit (eepromOf (mem s) a) (codeword (D a))) (hmod : ModerateScales D)
    (calls : List (Op F × Res (Err ER EW) Unit)) (d1 : Driver F σ) (hx : Session ⟨m, 12, b⟩ mem anyFrame d calls d1)
    (hn : ∀ c ∈ calls, ¬ ControlWriteFailed c.1 c.2) {δ : ℝ} (hp : AccuratePowers F δ) (em : ℝ)
    (given : Option ℝ) (dest dest' : List F) (d' : Driver F σ) (i : Nat) (hi : i < dest.length) (h192 : i < 192) :
    let env : Env σ ER EW := ⟨m, 12, b⟩
    let M := mem d1.bus
    let right := fun sp => (Mlx90641Memory.pixel M D em given sp i).Frozen δ → ∃ v, dest'[i]? = some v ∧ IsNaN v
    Is d1.effectiveEmissivity em → Option.Rel Is d1.reflectedTemperature given →
    (∀ sp, Driver.generateImageSubpageTo env sp dest d1 = (d', dest', .ok ()) → right sp) ∧
    (Driver.generateImageTo env dest d1 = (d', dest', .ok ()) → right (statusSubpage (M 0x8000#16))) ∧
    (Driver.generateImageIfReady env dest d1 = (d', dest', .ok true) → right (statusSubpage (M 0x8000#16))) := by
  intro env M right hem hgiven
  obtain ⟨hmem, c, hc, hcal⟩ := new_static h hd
  obtain ⟨hs, ha⟩ := (C39_constructed_drivers_supported m b s addr).2 s' d hd
  have hst : StaticMemory env.bus d.addr mem := by rw [ha]; exact h
  have hca := session_caches hs hst (C47_after_construction m b s s' addr d h (Or.inr hd)) hx hn
  obtain ⟨hs1, ha1, hcal1⟩ := session_supported hs hx
  have hholds : Ee641.Holds (memBytes (mem s) 0x2400#16 1664) D (Ee641.readAddresses 192) := by
    intro a ha
    have hb := readAddresses_bounds ha
    rw [eepromWord_memBytes _ (by omega) hb.2.1]
    exact hD a ha
  have hcc : d1.calib = c.toCalib := hcal1.trans hcal
  have acc : TemperatureLost m d1.calib (Ee641.calibration D) δ := by
    rw [hcc]
    obtain ⟨h1, h2, h3⟩ := C69_exact_641 m _ c hc D hholds hreg hmod
    exact temperature_lost m hp h1 (scaled641 _) (sized641 _ hreg hmod) (tempered641 _) h3 h2
  have hst1 : StaticMemory env.bus d1.addr mem := by rw [ha1]; exact hst
  have key := fun (s1 : σ) (hs2 : mem s1 = M) (sp : Subpage) (d2 : Driver F σ)
      (hf : (Mlx90641Memory.pixel M D em given sp i).Frozen δ) =>
    lost_641 D env { d1 with bus := s1 } ⟨hs1.1, hs1.2, hs1.3⟩ hst1
      (by show Caches d1 (mem s1 0x800D#16); rw [hs2]; exact hca) (δ := δ) (by show d1.calib.cam = _; rw [hcc]; rfl)
      acc em given hem hgiven sp dest dest' d2 i hi h192
      (by show (Mlx90641Memory.pixel (mem s1) D em given sp i).Frozen δ; rw [hs2]; exact hf)
  refine ⟨fun sp hg hf => key d1.bus rfl sp d' hf hg, fun hg hf => ?_, fun hg hf => ?_⟩
  · obtain ⟨s1, h1, h2⟩ := imageTo_reduces env d1 hst1 dest dest' d' hg
    exact key s1 h1 _ d' hf h2
  · obtain ⟨h3, s1, d2, h1, h4, h2⟩ := ifReady_reduces env d1 hst1 dest dest' d' hg
    exact key s1 h1 _ d2 hf h2
end

/-- What is not finite is NaN in correctly rounded arithmetic. -/
theorem none_nan : IsNaN (none : Rounded) := decide_eq_false (fun h => h.2 rfl)

theorem nan_none {a : Rounded} (h : IsNaN a) : a = none := by
  cases a with
  | none => rfl
  | some x => exact absurd (show F32Ops.feq (some x : Rounded) (some x) = true from decide_eq_true ⟨rfl, nofun⟩) (by rw [h]; nofun)

/-- Correctly rounded numbers, with NaN for everything that is not finite, behave so. -/
instance rounded_nan : Binary32NaN Rounded where
  add_left a b h := by rw [nan_none h]; exact none_nan
  add_right a b h := by rw [nan_none h]; cases a <;> exact none_nan
  sub_left a b h := by rw [nan_none h]; exact none_nan
  mul_right a b h := by rw [nan_none h]; cases a <;> exact none_nan
  div_right a b h := by
    rw [nan_none h]
    have : (F32Ops.div a (none : Rounded)) = lift2 (· / ·) a none := if_neg nofun
    rw [this]
    cases a <;> exact none_nan
  root a b h _ := by
    rw [nan_none h]
    have : (F32Ops.powf (none : Rounded) b) = none := ite_self none
    rw [this]
    exact none_nan
  root_negative a b x ha hx _ := by
    have : (F32Ops.powf a b : Rounded) = none := if_pos ⟨x, ha, hx⟩
    rw [this]
    exact none_nan

end Mlx.Props
