import Verif.Props.Noise
import Verif.Spec.Drift
/-
C103 and C104: what drifting amplifiers do to an image (nothing), and differences of raw images.
-/
set_option linter.unusedSectionVars false
set_option autoImplicit false
namespace Mlx.Props
open Mlx Mlx.Spec Mlx.Proofs F32Ops

/-! ### The documented functions -/

theorem ratio_scaled {p v p' v' : Int} (h : p * v' = p' * v) (n : ¬ (p = 0 ∧ v = 0)) (n' : ¬ (p' = 0 ∧ v' = 0)) :
    ∃ k : ℝ, k ≠ 0 ∧ (p' : ℝ) = k * p ∧ (v' : ℝ) = k * v := by
  have hr : (p : ℝ) * v' = p' * v := by exact_mod_cast h
  by_cases hp : p = 0
  · have hv : v ≠ 0 := fun hv => n ⟨hp, hv⟩
    have hp' : p' = 0 := by
      rw [hp, zero_mul, eq_comm, mul_eq_zero] at h
      exact h.resolve_right hv
    have hv' : v' ≠ 0 := fun hv' => n' ⟨hp', hv'⟩
    have hv0 : (v : ℝ) ≠ 0 := by exact_mod_cast hv
    have hv0' : (v' : ℝ) ≠ 0 := by exact_mod_cast hv'
    refine ⟨v' / v, div_ne_zero hv0' hv0, by simp [hp, hp'], by field_simp⟩
  · have hp' : p' ≠ 0 := by
      intro hp'
      rw [hp', zero_mul, mul_eq_zero] at h
      exact n' ⟨hp', h.resolve_left hp⟩
    have hp0 : (p : ℝ) ≠ 0 := by exact_mod_cast hp
    have hp0' : (p' : ℝ) ≠ 0 := by exact_mod_cast hp'
    refine ⟨p' / p, div_ne_zero hp0' hp0, by field_simp, ?_⟩
    field_simp
    linarith

/-- The ambient temperature depends on the ratio of the two voltages of the sensor. -/
theorem ambient_ratio (c : Calib ℝ) {r r' : RamData} (hv : r'.vddPixel = r.vddPixel) (h : r.tAPtat * r'.tAVbe = r'.tAPtat * r.tAVbe)
    (n : ¬ (r.tAPtat = 0 ∧ r.tAVbe = 0)) (n' : ¬ (r'.tAPtat = 0 ∧ r'.tAVbe = 0)) : Datasheet.ambient c r' = Datasheet.ambient c r := by
  obtain ⟨k, k0, e1, e2⟩ := ratio_scaled h n n'
  unfold Datasheet.ambient Datasheet.deltaV
  rw [hv, e1, e2, show k * (r.tAPtat : ℝ) * c.alphaPtat + k * r.tAVbe = k * (r.tAPtat * c.alphaPtat + r.tAVbe) by ring,
    mul_div_mul_left _ _ k0]

/-- Gain compensation only uses the ratio to the gain reading. -/
theorem gained_ratio {G : ℝ} {x g x' g' : Int} (h : x * g' = x' * g) (hg : g ≠ 0) (hg' : g' ≠ 0) :
    (x' : ℝ) * (G / g') = x * (G / g) := by
  have hr : (x : ℝ) * g' = x' * g := by exact_mod_cast h
  have h1 : (g : ℝ) ≠ 0 := by exact_mod_cast hg
  have h2 : (g' : ℝ) ≠ 0 := by exact_mod_cast hg'
  field_simp
  linear_combination (-G) * hr

/-- The inputs of a pixel in two frames, the second one drifted. -/
structure DriftedPixel (p q : PixelInputs) : Prop where
  others : q = { p with readings := q.readings, raw := q.raw }
  supply : q.readings.vddPixel = p.readings.vddPixel
  raw : p.raw * q.readings.gain = q.raw * p.readings.gain
  compensation : p.readings.compensationPixel * q.readings.gain = q.readings.compensationPixel * p.readings.gain
  gain : p.readings.gain ≠ 0
  gain' : q.readings.gain ≠ 0
  ambient : Datasheet.ambient p.table q.readings = Datasheet.ambient p.table p.readings

theorem DriftedPixel.signal {p q : PixelInputs} (h : DriftedPixel p q) : q.signal = p.signal := by
  obtain ⟨h1, h2, h3, h4, h5, h6, h7⟩ := h
  rw [h1]
  unfold PixelInputs.signal pixelSignal Datasheet.compensatedSignal Datasheet.signal Datasheet.supply Datasheet.deltaV
  dsimp only
  rw [h2, h7, gained_ratio h3 h5 h6, gained_ratio h4 h5 h6]

theorem DriftedPixel.temperature {p q : PixelInputs} (h : DriftedPixel p q) : q.temperature = p.temperature := by
  have hs := h.signal
  obtain ⟨h1, h2, h3, h4, h5, h6, h7⟩ := h
  show Datasheet.object q.signal q.sensitivity q.radiation q.kSTo = Datasheet.object p.signal p.sensitivity p.radiation p.kSTo
  rw [hs]
  unfold PixelInputs.radiation PixelInputs.surroundings PixelInputs.sensitivity PixelInputs.ambient Datasheet.sensitivity
  rw [h1]
  dsimp only
  rw [h7]

/-! ### The images -/

theorem toInt_ne_zero {w : Word} (h : w ≠ 0#16) : w.toInt ≠ 0 := by
  intro hw
  apply h
  rw [← BitVec.toInt_inj, hw]
  rfl

theorem sensor_ne_zero {a b : Word} (h : ¬ (a = 0#16 ∧ b = 0#16)) : ¬ (a.toInt = 0 ∧ b.toInt = 0) := by
  rintro ⟨h1, h2⟩
  by_cases ha : a = 0#16
  · by_cases hb : b = 0#16
    · exact h ⟨ha, hb⟩
    · exact toInt_ne_zero hb h2
  · exact toInt_ne_zero ha h1

theorem SameCamera.sameEeprom {f : FrameMap} {V W : Word → Word} (h : SameCamera f V W) : SameEeprom (eepromOf W) (eepromOf V) := by
  intro a h1 h2
  have e : (BitVec.ofNat 16 a).toNat = a := by rw [BitVec.toNat_ofNat, Nat.mod_eq_of_lt (by omega)]
  exact h.eeprom _ (by rw [e]; exact h1) (by rw [e]; exact h2)

theorem SameCamera.symm {f : FrameMap} {V W : Word → Word} (h : SameCamera f V W) : SameCamera f W V :=
  ⟨fun a h1 h2 => (h.eeprom a h1 h2).symm, h.control.symm, h.supply.symm⟩

/-- The inputs of a pixel in two frames of the same camera. -/
theorem same_camera_pixel_640 {V W : Word → Word} (h : SameCamera layout640 V W) (em : ℝ) (given : Option ℝ) (sp : Subpage) {i : Nat}
    (hi : i < 768) : Mlx90640Memory.pixel W em given sp i =
      { Mlx90640Memory.pixel V em given sp i with
        readings := Mlx90640Memory.readings W sp
        raw := (W (BitVec.ofNat 16 (0x0400 + i))).toInt } := by
  have hs := SameCamera.sameEeprom h
  unfold Mlx90640Memory.pixel Mlx90640Memory.comp
  dsimp only
  rw [h.control, hs.calibration, hs.offset hi, hs.alpha hi, hs.kV hi, hs.kTa hi, hs.interleave, hs 0x243D (by omega) (by omega),
    hs 0x243F (by omega) (by omega)]

theorem same_camera_pixel_641 {V W : Word → Word} (h : SameCamera layout641 V W) (D : Nat → BitVec 11) (em : ℝ) (given : Option ℝ)
    (sp : Subpage) (i : Nat) : Mlx90641Memory.pixel W D em given sp i =
      { Mlx90641Memory.pixel V D em given sp i with
        readings := Mlx90641Memory.readings W sp
        raw := (W (Mlx90641Memory.address sp i)).toInt } := by
  unfold Mlx90641Memory.pixel
  rw [h.control]

theorem drifted_ambient_640 {V W : Word → Word} {sp : Subpage} (h : Drifted layout640 sp V W) (c : Calib ℝ) :
    Datasheet.ambient c (Mlx90640Memory.readings W sp) = Datasheet.ambient c (Mlx90640Memory.readings V sp) :=
  ambient_ratio _ (congrArg BitVec.toInt h.supply) h.sensor (sensor_ne_zero h.sensors.1) (sensor_ne_zero h.sensors.2)

theorem drifted_640 {V W : Word → Word} {sp : Subpage} (h : Drifted layout640 sp V W) (em : ℝ) (given : Option ℝ) {i : Nat}
    (hi : i < 768) : DriftedPixel (Mlx90640Memory.pixel V em given sp i) (Mlx90640Memory.pixel W em given sp i) := by
  have hp := same_camera_pixel_640 h.toSameCamera em given sp hi
  have hc : (Mlx90640Memory.readings V sp).compensationPixel * (Mlx90640Memory.readings W sp).gain =
      (Mlx90640Memory.readings W sp).compensationPixel * (Mlx90640Memory.readings V sp).gain := by
    have := h.compensation
    cases sp <;> exact this
  have ha : (BitVec.ofNat 16 (0x0400 + i)).toNat = 0x0400 + i := by rw [BitVec.toNat_ofNat, Nat.mod_eq_of_lt (by omega)]
  have hv : (Mlx90640Memory.readings W sp).vddPixel = (Mlx90640Memory.readings V sp).vddPixel := congrArg BitVec.toInt h.supply
  rw [hp]
  exact ⟨rfl, hv, h.pixels _ (by rw [ha]; omega) (by rw [ha]; show _ < 0x0700; omega), hc,
    toInt_ne_zero h.gains.1, toInt_ne_zero h.gains.2,
    drifted_ambient_640 h _⟩

theorem address_range (sp : Subpage) {i : Nat} (hi : i < 192) :
    0x0400 ≤ (Mlx90641Memory.address sp i).toNat ∧ (Mlx90641Memory.address sp i).toNat < 0x0580 := by
  have hs : sp.toNat ≤ 1 := by cases sp <;> decide
  unfold Mlx90641Memory.address
  rw [BitVec.toNat_ofNat, Nat.mod_eq_of_lt (by omega)]
  omega

theorem drifted_ambient_641 {V W : Word → Word} {sp : Subpage} (h : Drifted layout641 sp V W) (c : Calib ℝ) :
    Datasheet.ambient c (Mlx90641Memory.readings W sp) = Datasheet.ambient c (Mlx90641Memory.readings V sp) :=
  ambient_ratio _ (congrArg BitVec.toInt h.supply) h.sensor (sensor_ne_zero h.sensors.1) (sensor_ne_zero h.sensors.2)

theorem drifted_641 {V W : Word → Word} {sp : Subpage} (h : Drifted layout641 sp V W) (D : Nat → BitVec 11) (em : ℝ) (given : Option ℝ)
    {i : Nat} (hi : i < 192) : DriftedPixel (Mlx90641Memory.pixel V D em given sp i) (Mlx90641Memory.pixel W D em given sp i) := by
  have hp := same_camera_pixel_641 h.toSameCamera D em given sp i
  have hc : (Mlx90641Memory.readings V sp).compensationPixel * (Mlx90641Memory.readings W sp).gain =
      (Mlx90641Memory.readings W sp).compensationPixel * (Mlx90641Memory.readings V sp).gain := by
    have := h.compensation
    cases sp <;> exact this
  have ha := address_range sp hi
  have hv : (Mlx90641Memory.readings W sp).vddPixel = (Mlx90641Memory.readings V sp).vddPixel := congrArg BitVec.toInt h.supply
  rw [hp]
  exact ⟨rfl, hv, h.pixels _ ha.1 ha.2, hc, toInt_ne_zero h.gains.1, toInt_ne_zero h.gains.2,
    drifted_ambient_641 h _⟩

/-- Every image is the documented one. -/
theorem taken_640 {kind : ImageKind} {V : Word → Word} {em : ℝ} {refl : Option ℝ} {sp : Subpage} {dest dest' : List ℝ} {tA : Option ℝ}
    (h : Taken Driver.new640 24 kind V em refl sp dest dest' tA)
    (hreg : Ee640.Regular (eepromOf V)) (hv : Fits16 ((V 0x072A#16).toInt - (Ee640.calibration (eepromOf V)).vdd25)) :
    tA = some (Datasheet.ambient (Ee640.calibration (eepromOf V)) (Mlx90640Memory.readings V sp)) ∧
    Drawn (Mlx90640Memory.measured V sp)
      (fun i => kind.value (Mlx90640Memory.pixel V em refl sp i)) dest dest' := by
  obtain ⟨σ, ER, EW, m, b, s, s', addr, d, d1, d', ops, hd, rfl, rfl, rfl, hV, rfl, hg⟩ := h
  obtain ⟨k0, k1, k2, k3⟩ := C99_camera_640 m b s s' addr d hd ops dest dest' d' V hV hreg hv
  cases kind with
  | raw => exact k0 _ hg
  | thermal =>
    rcases hg with hg | ⟨rfl, hg⟩ | ⟨rfl, hg⟩
    · exact k1 _ hg
    · exact k2 hg
    · exact k3 hg

theorem taken_641 {kind : ImageKind} {V : Word → Word} {em : ℝ} {refl : Option ℝ} {sp : Subpage} {dest dest' : List ℝ} {tA : Option ℝ}
    (h : Taken Driver.new641 12 kind V em refl sp dest dest' tA) {D : Nat → BitVec 11} (hreg : Ee641.Regular D)
    (hD : ∀ a ∈ Ee641.readAddresses 192, WithinOneBit (eepromOf V a) (codeword (D a)))
    (hv : Fits16 ((V 0x05AA#16).toInt - (Ee641.calibration D).vdd25)) :
    tA = some (Datasheet.ambient (Ee641.calibration D) (Mlx90641Memory.readings V sp)) ∧
    Drawn (fun i => i < 192)
      (fun i => kind.value (Mlx90641Memory.pixel V D em refl sp i)) dest dest' := by
  obtain ⟨σ, ER, EW, m, b, s, s', addr, d, d1, d', ops, hd, rfl, rfl, rfl, hV, rfl, hg⟩ := h
  obtain ⟨k0, k1, k2, k3⟩ := C99_camera_641 m b s s' addr d hd ops dest dest' d' V hV D hreg hD hv
  cases kind with
  | raw => exact k0 _ hg
  | thermal =>
    rcases hg with hg | ⟨rfl, hg⟩ | ⟨rfl, hg⟩
    · exact k1 _ hg
    · exact k2 hg
    · exact k3 hg

theorem Drawn_unique {m m' : Nat → Prop} {v v' : Nat → ℝ} {old new new' : List ℝ} (h : Drawn m v old new) (h' : Drawn m' v' old new')
    (hm : ∀ i, m' i ↔ m i) (hv : ∀ i, m i → v' i = v i) : new' = new := by
  refine List.ext_getElem? fun i => ?_
  by_cases hi : i < old.length
  · by_cases c : m i
    · rw [((h.2 i).1 c hi), ((h'.2 i).1 ((hm i).2 c) hi), hv i c]
    · rw [((h.2 i).2 c), ((h'.2 i).2 (fun k => c ((hm i).1 k)))]
  · rw [List.getElem?_eq_none (by rw [h'.1]; omega), List.getElem?_eq_none (by rw [h.1]; omega)]

/-- **C103 (MLX90640, exact arithmetic).** Two images of the same kind and subpage, made with the same settings into equal buffers,
on any buses and after any calls, of frames that were heard to differ by a drift of the amplifiers only: they are equal, and so are
the ambient temperatures. -/
theorem C103_exact_640 {kind : ImageKind} {V W : Word → Word} {em : ℝ} {refl : Option ℝ} {sp : Subpage} {dest dest' old' : List ℝ}
    {tA tA' : Option ℝ} (h1 : Taken Driver.new640 24 kind V em refl sp dest dest' tA)
    (h2 : Taken Driver.new640 24 kind W em refl sp dest old' tA') (hreg : Ee640.Regular (eepromOf V))
    (hv : Fits16 ((V 0x072A#16).toInt - (Ee640.calibration (eepromOf V)).vdd25)) (h : Drifted layout640 sp V W) :
    old' = dest' ∧ tA' = tA := by
  have hs := SameCamera.sameEeprom h.toSameCamera
  obtain ⟨a1, a2⟩ := taken_640 h1 hreg hv
  obtain ⟨b1, b2⟩ := taken_640 h2 ((SameCamera.sameEeprom (SameCamera.symm h.toSameCamera)).regular hreg) (by
    rw [show W 0x072A#16 = V 0x072A#16 from h.supply, hs.calibration]; exact hv)
  refine ⟨Drawn_unique a2 b2 (fun i => ?_) (fun i hi => ?_), ?_⟩
  · unfold Mlx90640Memory.measured; rw [h.control]
  · cases kind with
    | raw => exact (drifted_640 h em refl hi.1).signal
    | thermal => exact (drifted_640 h em refl hi.1).temperature
  · rw [a1, b1, hs.calibration]
    exact congrArg some (drifted_ambient_640 h _)

/-- **C103 (MLX90641, exact arithmetic).** The same for the MLX90641. -/
theorem C103_exact_641 {kind : ImageKind} {V W : Word → Word} {em : ℝ} {refl : Option ℝ} {sp : Subpage} {dest dest' old' : List ℝ}
    {tA tA' : Option ℝ} (h1 : Taken Driver.new641 12 kind V em refl sp dest dest' tA)
    (h2 : Taken Driver.new641 12 kind W em refl sp dest old' tA') (D : Nat → BitVec 11) (hreg : Ee641.Regular D)
    (hD : ∀ a ∈ Ee641.readAddresses 192, WithinOneBit (eepromOf V a) (codeword (D a)))
    (hv : Fits16 ((V 0x05AA#16).toInt - (Ee641.calibration D).vdd25)) (h : Drifted layout641 sp V W) :
    old' = dest' ∧ tA' = tA := by
  have hs := SameCamera.sameEeprom h.toSameCamera
  obtain ⟨a1, a2⟩ := taken_641 h1 hreg hD hv
  obtain ⟨b1, b2⟩ := taken_641 h2 hreg (fun a ha => by
    obtain ⟨b1, b2, _⟩ := readAddresses_bounds ha
    rw [hs a (by omega) b2]
    exact hD a ha) (by rw [show W 0x05AA#16 = V 0x05AA#16 from h.supply]; exact hv)
  refine ⟨Drawn_unique a2 b2 (fun i => Iff.rfl) (fun i hi => ?_), ?_⟩
  · cases kind with
    | raw => exact (drifted_641 h D em refl hi).signal
    | thermal => exact (drifted_641 h D em refl hi).temperature
  · rw [a1, b1]
    exact congrArg some (drifted_ambient_641 h _)

/-! ### Rounding -/

section
variable {F : Type} [F32Ops F] [Binary32 F]

/-- Every image is near the documented one. -/
theorem taken_near_640 {kind : ImageKind} {V : Word → Word} {x : F} {refl : Option F} {sp : Subpage} {dest dest' : List F} {tA : Option F}
    (h : Taken Driver.new640 24 kind V x refl sp dest dest' tA) (hreg : Ee640.Regular (eepromOf V))
    {δ : ℝ} (hp : AccuratePowers F δ) (hδ : δ ≤ 1 / 2 ^ 22) {em : ℝ} {given : Option ℝ} (hem : Is x em)
    (hgiven : Option.Rel Is refl given) :
    (Plausible (Ee640.calibration (eepromOf V)) (Mlx90640Memory.readings V sp) → ∃ t, tA = some t ∧
      Within t (Datasheet.ambient (Ee640.calibration (eepromOf V)) (Mlx90640Memory.readings V sp))
        (ambientError (Ee640.calibration (eepromOf V)) (Mlx90640Memory.readings V sp))) ∧
    ∀ i, i < dest.length → Mlx90640Memory.measured V sp i → kind.Good (Mlx90640Memory.pixel V em given sp i) →
      ∃ v, dest'[i]? = some v ∧ Within v (kind.value (Mlx90640Memory.pixel V em given sp i))
        (kind.error (Mlx90640Memory.pixel V em given sp i)) := by
  obtain ⟨σ, ER, EW, m, b, s, s', addr, d, d1, d', ops, hd, rfl, rfl, rfl, hV, rfl, hg⟩ := h
  obtain ⟨k0, k1, k2, k3⟩ := C100_camera_640 m b s s' addr d hd ops dest dest' d' V hV hreg hp em given hem hgiven
  have thermal : ∀ sp, NearAmbient (Ee640.calibration (eepromOf V)) (Mlx90640Memory.readings V sp) d' ∧
      DrawnNear (Mlx90640Memory.measured V sp) (fun i => (Mlx90640Memory.pixel V em given sp i).Computable δ)
        (fun i => (Mlx90640Memory.pixel V em given sp i).temperature) (fun i => (Mlx90640Memory.pixel V em given sp i).temperatureError δ)
        dest dest' → NearAmbient (Ee640.calibration (eepromOf V)) (Mlx90640Memory.readings V sp) d' ∧
      ∀ i, i < dest.length → Mlx90640Memory.measured V sp i → (Mlx90640Memory.pixel V em given sp i).Usual →
        ∃ v, dest'[i]? = some v ∧ Within v (Mlx90640Memory.pixel V em given sp i).temperature 0.6 := by
    rintro sp ⟨a1, a2⟩
    refine ⟨a1, fun i hi hm hu => ?_⟩
    obtain ⟨v, v1, v2, _⟩ := drawn_usual hp hδ a2 i hi hm hu
    exact ⟨v, v1, v2⟩
  cases kind with
  | raw =>
    obtain ⟨a1, a2⟩ := k0 _ hg
    exact ⟨a1, fun i hi hm hgood => (a2.2 i).1 hm hgood hi⟩
  | thermal =>
    rcases hg with hg | ⟨rfl, hg⟩ | ⟨rfl, hg⟩
    · exact thermal _ (k1 _ hg)
    · exact thermal _ (k2 hg)
    · exact thermal _ (k3 hg)

theorem taken_near_641 {kind : ImageKind} {V : Word → Word} {x : F} {refl : Option F} {sp : Subpage} {dest dest' : List F} {tA : Option F}
    (h : Taken Driver.new641 12 kind V x refl sp dest dest' tA) {D : Nat → BitVec 11} (hreg : Ee641.Regular D)
    (hD : ∀ a ∈ Ee641.readAddresses 192, WithinOneBit (eepromOf V a) (codeword (D a))) (hmod : ModerateScales D)
    {δ : ℝ} (hp : AccuratePowers F δ) (hδ : δ ≤ 1 / 2 ^ 22) {em : ℝ} {given : Option ℝ} (hem : Is x em)
    (hgiven : Option.Rel Is refl given) :
    (Plausible (Ee641.calibration D) (Mlx90641Memory.readings V sp) → ∃ t, tA = some t ∧
      Within t (Datasheet.ambient (Ee641.calibration D) (Mlx90641Memory.readings V sp))
        (ambientError (Ee641.calibration D) (Mlx90641Memory.readings V sp))) ∧
    ∀ i, i < dest.length → i < 192 → kind.Good (Mlx90641Memory.pixel V D em given sp i) →
      ∃ v, dest'[i]? = some v ∧ Within v (kind.value (Mlx90641Memory.pixel V D em given sp i))
        (kind.error (Mlx90641Memory.pixel V D em given sp i)) := by
  obtain ⟨σ, ER, EW, m, b, s, s', addr, d, d1, d', ops, hd, rfl, rfl, rfl, hV, rfl, hg⟩ := h
  obtain ⟨k0, k1, k2, k3⟩ := C100_camera_641 m b s s' addr d hd ops dest dest' d' V hV D hreg hD hmod hp em given hem hgiven
  have thermal : ∀ sp, NearAmbient (Ee641.calibration D) (Mlx90641Memory.readings V sp) d' ∧
      DrawnNear (fun i => i < 192) (fun i => (Mlx90641Memory.pixel V D em given sp i).Computable δ)
        (fun i => (Mlx90641Memory.pixel V D em given sp i).temperature)
        (fun i => (Mlx90641Memory.pixel V D em given sp i).temperatureError δ)
        dest dest' → NearAmbient (Ee641.calibration D) (Mlx90641Memory.readings V sp) d' ∧
      ∀ i, i < dest.length → i < 192 → (Mlx90641Memory.pixel V D em given sp i).Usual →
        ∃ v, dest'[i]? = some v ∧ Within v (Mlx90641Memory.pixel V D em given sp i).temperature 0.6 := by
    rintro sp ⟨a1, a2⟩
    refine ⟨a1, fun i hi hm hu => ?_⟩
    obtain ⟨v, v1, v2, _⟩ := drawn_usual hp hδ a2 i hi hm hu
    exact ⟨v, v1, v2⟩
  cases kind with
  | raw =>
    obtain ⟨a1, a2⟩ := k0 _ hg
    exact ⟨a1, fun i hi hm hgood => (a2.2 i).1 hm hgood hi⟩
  | thermal =>
    rcases hg with hg | ⟨rfl, hg⟩ | ⟨rfl, hg⟩
    · exact thermal _ (k1 _ hg)
    · exact thermal _ (k2 hg)
    · exact thermal _ (k3 hg)

/-- **C103 (MLX90640, binary32).** In binary32 arithmetic: the two ambient temperatures, and the two values of a measured pixel, are
within the sum of the bounds of their rounding errors; for usual measurements of temperatures, 1.2 °C. -/
theorem C103_rounded_640 {kind : ImageKind} {V W : Word → Word} {x : F} {refl : Option F} {sp : Subpage} {dest dest' old old' : List F}
    {tA tA' : Option F} (h1 : Taken Driver.new640 24 kind V x refl sp dest dest' tA)
    (h2 : Taken Driver.new640 24 kind W x refl sp old old' tA') (hreg : Ee640.Regular (eepromOf V))
    {δ : ℝ} (hp : AccuratePowers F δ) (hδ : δ ≤ 1 / 2 ^ 22) {em : ℝ} {given : Option ℝ} (hem : Is x em)
    (hgiven : Option.Rel Is refl given) (h : Drifted layout640 sp V W) :
    let t := Ee640.calibration (eepromOf V)
    let r := Mlx90640Memory.readings V sp
    let r' := Mlx90640Memory.readings W sp
    (Plausible t r → Plausible t r' → ∃ v w y z, tA = some v ∧ tA' = some w ∧ Is v y ∧ Is w z ∧
      |y - z| ≤ ambientError t r + ambientError t r') ∧
    ∀ i, i < dest.length → i < old.length → Mlx90640Memory.measured V sp i →
      let p := Mlx90640Memory.pixel V em given sp i
      let q := Mlx90640Memory.pixel W em given sp i
      kind.Good p → kind.Good q → ∃ v w y z, dest'[i]? = some v ∧ old'[i]? = some w ∧ Is v y ∧ Is w z ∧
        |y - z| ≤ kind.error p + kind.error q := by
  intro t r r'
  have hs := SameCamera.sameEeprom h.toSameCamera
  have ht : Ee640.calibration (eepromOf W) = t := hs.calibration
  obtain ⟨a1, a2⟩ := taken_near_640 h1 hreg hp hδ hem hgiven
  obtain ⟨b1, b2⟩ := taken_near_640 h2 ((SameCamera.sameEeprom (SameCamera.symm h.toSameCamera)).regular hreg) hp hδ hem hgiven
  rw [ht] at b1
  refine ⟨fun c1 c2 => ?_, ?_⟩
  · obtain ⟨v, v1, v2⟩ := a1 c1
    obtain ⟨w, w1, w2⟩ := b1 c2
    obtain ⟨y, z, y1, z1, yz⟩ := within_apart v2 w2 (c := 0) (by
      rw [drifted_ambient_640 h, sub_self, abs_zero])
    exact ⟨v, w, y, z, v1, w1, y1, z1, by rwa [add_zero] at yz⟩
  · intro i hi hi' hm p q hgp hgq
    obtain ⟨v, v1, v2⟩ := a2 i hi hm hgp
    obtain ⟨w, w1, w2⟩ := b2 i hi' (by unfold Mlx90640Memory.measured at hm ⊢; rw [h.control]; exact hm) hgq
    obtain ⟨y, z, y1, z1, yz⟩ := within_apart v2 w2 (c := 0) (by
      have : kind.value q = kind.value p := by
        cases kind with
        | raw => exact (drifted_640 h em given hm.1).signal
        | thermal => exact (drifted_640 h em given hm.1).temperature
      show |kind.value p - kind.value q| ≤ 0
      rw [this, sub_self, abs_zero])
    exact ⟨v, w, y, z, v1, w1, y1, z1, by rwa [add_zero] at yz⟩

/-- **C103 (MLX90641, binary32).** The same for the MLX90641. -/
theorem C103_rounded_641 {kind : ImageKind} {V W : Word → Word} {x : F} {refl : Option F} {sp : Subpage} {dest dest' old old' : List F}
    {tA tA' : Option F} (h1 : Taken Driver.new641 12 kind V x refl sp dest dest' tA)
    (h2 : Taken Driver.new641 12 kind W x refl sp old old' tA') (D : Nat → BitVec 11) (hreg : Ee641.Regular D)
    (hD : ∀ a ∈ Ee641.readAddresses 192, WithinOneBit (eepromOf V a) (codeword (D a))) (hmod : ModerateScales D)
    {δ : ℝ} (hp : AccuratePowers F δ) (hδ : δ ≤ 1 / 2 ^ 22) {em : ℝ} {given : Option ℝ} (hem : Is x em)
    (hgiven : Option.Rel Is refl given) (h : Drifted layout641 sp V W) :
    let t := Ee641.calibration D
    let r := Mlx90641Memory.readings V sp
    let r' := Mlx90641Memory.readings W sp
    (Plausible t r → Plausible t r' → ∃ v w y z, tA = some v ∧ tA' = some w ∧ Is v y ∧ Is w z ∧
      |y - z| ≤ ambientError t r + ambientError t r') ∧
    ∀ i, i < dest.length → i < old.length → i < 192 →
      let p := Mlx90641Memory.pixel V D em given sp i
      let q := Mlx90641Memory.pixel W D em given sp i
      kind.Good p → kind.Good q → ∃ v w y z, dest'[i]? = some v ∧ old'[i]? = some w ∧ Is v y ∧ Is w z ∧
        |y - z| ≤ kind.error p + kind.error q := by
  intro t r r'
  have hs := SameCamera.sameEeprom h.toSameCamera
  obtain ⟨a1, a2⟩ := taken_near_641 h1 hreg hD hmod hp hδ hem hgiven
  obtain ⟨b1, b2⟩ := taken_near_641 h2 hreg (fun a ha => by
    obtain ⟨b1, b2, _⟩ := readAddresses_bounds ha
    rw [hs a (by omega) b2]
    exact hD a ha) hmod hp hδ hem hgiven
  refine ⟨fun c1 c2 => ?_, ?_⟩
  · obtain ⟨v, v1, v2⟩ := a1 c1
    obtain ⟨w, w1, w2⟩ := b1 c2
    obtain ⟨y, z, y1, z1, yz⟩ := within_apart v2 w2 (c := 0) (by
      rw [drifted_ambient_641 h, sub_self, abs_zero])
    exact ⟨v, w, y, z, v1, w1, y1, z1, by rwa [add_zero] at yz⟩
  · intro i hi hi' hm p q hgp hgq
    obtain ⟨v, v1, v2⟩ := a2 i hi hm hgp
    obtain ⟨w, w1, w2⟩ := b2 i hi' hm hgq
    obtain ⟨y, z, y1, z1, yz⟩ := within_apart v2 w2 (c := 0) (by
      have : kind.value q = kind.value p := by
        cases kind with
        | raw => exact (drifted_641 h D em given hm).signal
        | thermal => exact (drifted_641 h D em given hm).temperature
      show |kind.value p - kind.value q| ≤ 0
      rw [this, sub_self, abs_zero])
    exact ⟨v, w, y, z, v1, w1, y1, z1, by rwa [add_zero] at yz⟩

end

/-- A usual measurement stays usual if the gain drifts moderately. -/
theorem drifted_usual {p q : PixelInputs} (h : DriftedPixel p q) (hu : p.Usual) (h1 : q.readings.tAPtat = p.readings.tAPtat)
    (h2 : q.readings.tAVbe = p.readings.tAVbe) (hg : Fits16 q.readings.gain ∧ |p.table.gain / q.readings.gain| ≤ 2)
    (hr : |(q.raw : ℝ)| ≤ 4096 ∧ |(q.readings.compensationPixel : ℝ)| ≤ 4096) : q.Usual := by
  have hs := h.signal
  obtain ⟨ho, hv, -, -, -, g0, ha⟩ := h
  have hd : Datasheet.deltaV p.table q.readings = Datasheet.deltaV p.table p.readings := by unfold Datasheet.deltaV; rw [hv]
  have ha' : q.ambient = p.ambient := by rw [ho]; exact ha
  have hsur : q.surroundings = p.surroundings := by unfold PixelInputs.surroundings; rw [ha', ho]
  have hrad : q.radiation = p.radiation := by unfold PixelInputs.radiation; rw [ha', hsur, ho]
  have hsen : q.sensitivity = p.sensitivity := by
    unfold PixelInputs.sensitivity Datasheet.sensitivity
    rw [ho]
    dsimp only
    rw [ha]
  have hco : correction q.table q.control = correction p.table p.control := by rw [ho]
  have hpt : ptatVoltage q.table q.readings = ptatVoltage p.table p.readings := by
    unfold ptatVoltage
    rw [ho]
    dsimp only
    rw [h1, h2, hd]
  have hsu : Datasheet.supply q.table (correction q.table q.control) q.readings =
      Datasheet.supply p.table (correction p.table p.control) p.readings := by
    rw [hco]
    unfold Datasheet.supply
    rw [ho]
    dsimp only
    rw [hd]
  have hd' : Datasheet.deltaV q.table q.readings = Datasheet.deltaV p.table p.readings := by rw [ho]; exact hd
  have hk : q.table = p.table ∧ q.emissivity = p.emissivity ∧ q.subpage = p.subpage ∧ q.control = p.control ∧ q.offset = p.offset ∧
      q.alpha = p.alpha ∧ q.kV = p.kV ∧ q.kTa = p.kTa ∧ q.comp = p.comp ∧ q.kSTo = p.kSTo := by
    rw [ho]; exact ⟨rfl, rfl, rfl, rfl, rfl, rfl, rfl, rfl, rfl, rfl⟩
  obtain ⟨k1, k2, k3, k4, k5, k6, k7, k8, k9, k10⟩ := hk
  refine ⟨⟨⟨?_, ?_, ?_, ?_, ?_, ?_, ?_⟩, ⟨g0, hg.1, ?_⟩, ?_, ?_, ?_, ?_, ?_, ?_, ⟨hr.1, ?_, ?_, ?_, ?_⟩, ⟨hr.2, ?_, ?_, ?_, ?_⟩, ?_, ?_, ?_, ?_,
    ?_, ?_⟩, ?_⟩
  · rw [k1, hv]; exact hu.plausible.vdd
  · rw [k1]; exact hu.plausible.kVdd
  · rw [k1]; exact hu.plausible.kTptat
  · rw [k1]; exact hu.plausible.alphaPtat
  · rw [h1]; exact hu.plausible.ptat
  · rw [h2]; exact hu.plausible.vbe
  · rw [hd', k1]; exact hu.plausible.voltage
  · rw [k1]; exact hg.2
  · rw [hpt, k1]; exact hu.ptat
  · rw [ha']; exact hu.ambient
  · rw [hsur]; exact hu.surroundings
  · rw [hrad]; exact hu.radiation
  · rw [hsu, hd', hco]; exact hu.supply
  · rw [k2]; exact hu.emissivity
  · rw [k5]; exact hu.pixel.reference
  · rw [k7]; exact hu.pixel.supply
  · rw [k8]; exact hu.pixel.ambient
  · rw [k9]; exact hu.pixel.correction
  · rw [k1, k3]; exact hu.compensation.reference
  · rw [k1, k3]; exact hu.compensation.supply
  · rw [k1, k3]; exact hu.compensation.ambient
  · rw [k1, k3, k4]; exact hu.compensation.correction
  · rw [k1]; exact hu.gradient
  · rw [k5, k8, k1, k3]; exact hu.drift
  · rw [hsen]; exact hu.sensitivity
  · rw [k6, k1, k3]; exact hu.alpha
  · rw [k1]; exact hu.kSTa
  · rw [k10]; exact hu.kSTo
  · rw [hs, hsen, hrad]; exact hu.contrast

/-- The memory of C75's example, where the other pixels read 0; and everything that is amplified is `k` times as large. -/
def amplifiedMemory (k : Nat) (a : Word) : Word :=
  if 0x0400 ≤ a.toNat ∧ a.toNat < 0x0700 then (if a = 0x056F#16 then BitVec.ofNat 16 (512 * k) else 0#16)
  else if a = 0x0708#16 then BitVec.ofInt 16 (-54 * k)
  else if a = 0x070A#16 then BitVec.ofNat 16 (6881 * k)
  else sceneMemory a

theorem amplified_scene : DifferInPixels 0x0700 sceneMemory (amplifiedMemory 1) := by
  intro a ha
  unfold amplifiedMemory
  rw [if_neg ha]
  by_cases h1 : a = 0x0708#16
  · subst h1; decide +kernel
  · rw [if_neg h1]
    by_cases h2 : a = 0x070A#16
    · subst h2; decide +kernel
    · rw [if_neg h2]

theorem amplified_drifted : Drifted layout640 .zero (amplifiedMemory 1) (amplifiedMemory 2) := by
  refine ⟨⟨fun a h1 h2 => ?_, by decide +kernel, by decide +kernel⟩, fun a h1 h2 => ?_, by unfold SameRatio; decide +kernel, by decide +kernel,
    by unfold SameRatio; decide +kernel, by decide +kernel⟩
  · unfold amplifiedMemory
    have e1 : ¬ (0x0400 ≤ a.toNat ∧ a.toNat < 0x0700) := by omega
    have e2 : a ≠ 0x0708#16 := by rintro rfl; exact absurd h1 (by decide)
    have e3 : a ≠ 0x070A#16 := by rintro rfl; exact absurd h1 (by decide)
    rw [if_neg e1, if_neg e1, if_neg e2, if_neg e2, if_neg e3, if_neg e3]
  · have h2 : a.toNat < 0x0700 := h2
    have g1 : amplifiedMemory 1 layout640.gain = 6881#16 := by decide +kernel
    have g2 : amplifiedMemory 2 layout640.gain = 13762#16 := by decide +kernel
    unfold SameRatio
    rw [g1, g2]
    unfold amplifiedMemory
    have h12 : 0x0400 ≤ a.toNat ∧ a.toNat < 0x0700 := ⟨h1, h2⟩
    rw [if_pos h12, if_pos h12]
    by_cases e : a = 0x056F#16
    · rw [if_pos e, if_pos e]; decide +kernel
    · rw [if_neg e, if_neg e]; rfl

theorem amplified_usual_1 : (Mlx90640Memory.pixel (amplifiedMemory 1) 1 none .zero 367).Usual := by
  have h := differ_pixel_640 amplified_scene 1 none .zero (i := 367) (by decide)
  have hr : (amplifiedMemory 1 (BitVec.ofNat 16 (0x0400 + 367))).toInt = (Mlx90640Memory.pixel sceneMemory 1 none .zero 367).raw := by
    rw [scene_pixel]
    decide +kernel
  rw [h, hr]
  exact scene_usual

theorem amplified_readings (k : Nat) (hk : k = 1 ∨ k = 2) : Mlx90640Memory.readings (amplifiedMemory k) .zero =
    { tAVbe := 19442, tAPtat := 1711, vddPixel := -13115, gain := 6881 * k, compensationPixel := -54 * k } := by
  rcases hk with rfl | rfl <;> decide +kernel

theorem amplified_usual_2 : (Mlx90640Memory.pixel (amplifiedMemory 2) 1 none .zero 367).Usual := by
  have h := drifted_640 amplified_drifted 1 none (i := 367) (by decide)
  have hu := amplified_usual_1
  have r1 : (Mlx90640Memory.pixel (amplifiedMemory 1) 1 none .zero 367).readings = _ := amplified_readings 1 (Or.inl rfl)
  have r2 : (Mlx90640Memory.pixel (amplifiedMemory 2) 1 none .zero 367).readings = _ := amplified_readings 2 (Or.inr rfl)
  have hraw : (Mlx90640Memory.pixel (amplifiedMemory 2) 1 none .zero 367).raw = 1024 := by
    show (amplifiedMemory 2 (BitVec.ofNat 16 (0x0400 + 367))).toInt = 1024
    decide +kernel
  have hg := hu.gain.2.2
  generalize Mlx90640Memory.pixel (amplifiedMemory 1) 1 none .zero 367 = p at *
  generalize Mlx90640Memory.pixel (amplifiedMemory 2) 1 none .zero 367 = q at *
  refine drifted_usual h hu (by rw [r1, r2]) (by rw [r1, r2]) ⟨?_, ?_⟩ ⟨?_, ?_⟩
  · rw [r2]; decide
  · rw [r1] at hg
    rw [r2]
    push_cast at hg ⊢
    rw [abs_div] at hg ⊢
    rw [div_le_iff₀ (by norm_num)] at hg ⊢
    norm_num at hg ⊢
    linarith
  · rw [hraw]; norm_num
  · rw [r2]; norm_num

/-- Both can be read with correctly rounded operations in a release build; everything that `C103_rounded_640` assumes holds, and the two
temperatures of pixel 367 differ by at most 1.2 °C. -/
example (dest : List Rounded) (hdest : dest.length = 768) :
    ∃ dest' old' tA tA', Taken (F := Rounded) Driver.new640 24 .thermal (amplifiedMemory 1) (lit 1) none .zero dest dest' tA ∧
      Taken (F := Rounded) Driver.new640 24 .thermal (amplifiedMemory 2) (lit 1) none .zero dest old' tA' ∧
      ∃ v w y z, dest'[367]? = some v ∧ old'[367]? = some w ∧ Is v y ∧ Is w z ∧ |y - z| ≤ 1.2 := by
  have made : ∀ M, ∃ dest' tA, Taken (F := Rounded) Driver.new640 24 .thermal M (lit 1) none .zero dest dest' tA := by
    intro M
    obtain ⟨s', d, d', dest', hd, hg, heard, hem, hrefl⟩ := imaged_640 M .zero dest
    exact ⟨dest', _, _, _, _, _, _, _, _, _, d, d, d', [], hd, rfl, hem, hrefl, heard, rfl, Or.inl hg⟩
  obtain ⟨dest', tA, h1⟩ := made (amplifiedMemory 1)
  obtain ⟨old', tA', h2⟩ := made (amplifiedMemory 2)
  refine ⟨dest', old', tA, tA', h1, h2, ?_⟩
  have hreg : Ee640.Regular (eepromOf (amplifiedMemory 1)) :=
    SameEeprom.regular (differ_eeprom le_rfl (fun a ha => (amplified_scene a ha).symm)) (SameEeprom.regular (E := eepromOf (exampleMemory words640)) scene_same example640_regular)
  have hm : Mlx90640Memory.measured (amplifiedMemory 1) .zero 367 := by
    have := scene640.1
    unfold Mlx90640Memory.measured at this ⊢
    rwa [show amplifiedMemory 1 0x800D#16 = sceneMemory 0x800D#16 from amplified_scene _ (by decide)]
  obtain ⟨-, key⟩ := C103_rounded_640 h1 h2 hreg rounded_powers (by norm_num) (em := 1)
    (is_lit (by norm_num) (by simpa using value_int (m := 1) (by norm_num))) .none amplified_drifted
  obtain ⟨v, w, y, z, v1, w1, y1, z1, yz⟩ := key 367 (by omega) (by omega) hm amplified_usual_1 amplified_usual_2
  refine ⟨v, w, y, z, v1, w1, y1, z1, yz.trans ?_⟩
  show (0.6 : ℝ) + 0.6 ≤ 1.2
  norm_num

/-- The voltages of the temperature sensor may drift as well. -/
example : Drifted layout640 .zero (setWord (setWord (amplifiedMemory 1) 0x0700#16 20000#16) 0x0720#16 1800#16)
    (setWord (setWord (amplifiedMemory 2) 0x0700#16 10000#16) 0x0720#16 900#16) := by
  have h := amplified_drifted
  have hn : ∀ (M : Word → Word) (u v a : Word), a ≠ 0x0700#16 → a ≠ 0x0720#16 → setWord (setWord M 0x0700#16 u) 0x0720#16 v a = M a := by
    intro M u v a h1 h2
    unfold setWord
    rw [if_neg h2, if_neg h1]
  have hge : ∀ a : Word, 0x2400 ≤ a.toNat ∨ a.toNat < 0x0700 → a ≠ 0x0700#16 ∧ a ≠ 0x0720#16 := by
    intro a ha
    constructor <;> (rintro rfl; revert ha; decide)
  refine ⟨⟨fun a h1 h2 => ?_, ?_, ?_⟩, fun a h1 h2 => ?_, ?_, ?_, by unfold SameRatio; decide +kernel, by decide +kernel⟩
  · rw [hn _ _ _ _ (hge a (Or.inl h1)).1 (hge a (Or.inl h1)).2, hn _ _ _ _ (hge a (Or.inl h1)).1 (hge a (Or.inl h1)).2]
    exact h.eeprom a h1 h2
  · rw [hn _ _ _ _ (by decide) (by decide), hn _ _ _ _ (by decide) (by decide)]
    exact h.control
  · rw [hn _ _ _ _ (by decide) (by decide), hn _ _ _ _ (by decide) (by decide)]
    exact h.supply
  · unfold SameRatio
    rw [hn _ _ _ _ (hge a (Or.inr h2)).1 (hge a (Or.inr h2)).2, hn _ _ _ _ (hge a (Or.inr h2)).1 (hge a (Or.inr h2)).2,
      hn _ _ _ _ (by decide) (by decide), hn _ _ _ _ (by decide) (by decide)]
    exact h.pixels a h1 h2
  · unfold SameRatio
    rw [hn _ _ _ _ (by decide) (by decide), hn _ _ _ _ (by decide) (by decide), hn _ _ _ _ (by decide) (by decide),
      hn _ _ _ _ (by decide) (by decide)]
    exact h.compensation
  · rw [hn _ _ _ _ (by decide) (by decide), hn _ _ _ _ (by decide) (by decide)]
    exact h.gains

end Mlx.Props
