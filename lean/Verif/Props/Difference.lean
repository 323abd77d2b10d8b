import Verif.Props.Drift
/-
C104: differences of raw images.
-/
set_option linter.unusedSectionVars false
set_option autoImplicit false
namespace Mlx.Props
open Mlx Mlx.Spec Mlx.Proofs F32Ops

theorem signal_difference {p q : PixelInputs} (h1 : q = { p with readings := q.readings, raw := q.raw, given := q.given })
    (h2 : q.readings = { p.readings with compensationPixel := q.readings.compensationPixel }) :
    p.signal - q.signal = p.table.gain / p.readings.gain *
      (((p.raw : ℝ) - q.raw) - p.table.tgc.getD 0 * ((p.readings.compensationPixel : ℝ) - q.readings.compensationPixel)) / p.emissivity := by
  rw [h1, h2]
  unfold PixelInputs.signal pixelSignal Datasheet.compensatedSignal Datasheet.signal Datasheet.supply Datasheet.ambient Datasheet.deltaV
  dsimp only
  ring

theorem SameReadings.readings_640 {V W : Word → Word} (h : SameReadings layout640 V W) (sp : Subpage) :
    Mlx90640Memory.readings W sp =
      { Mlx90640Memory.readings V sp with compensationPixel := (W (layout640.cp sp)).toInt } := by
  unfold Mlx90640Memory.readings
  rw [show W 0x0700#16 = V 0x0700#16 from h.vbe, show W 0x0720#16 = V 0x0720#16 from h.ptat, show W 0x072A#16 = V 0x072A#16 from h.supply,
    show W 0x070A#16 = V 0x070A#16 from h.gain]
  cases sp <;> rfl

theorem SameReadings.readings_641 {V W : Word → Word} (h : SameReadings layout641 V W) (sp : Subpage) :
    Mlx90641Memory.readings W sp =
      { Mlx90641Memory.readings V sp with compensationPixel := (W (layout641.cp sp)).toInt } := by
  unfold Mlx90641Memory.readings
  rw [show W 0x0580#16 = V 0x0580#16 from h.vbe, show W 0x05A0#16 = V 0x05A0#16 from h.ptat, show W 0x05AA#16 = V 0x05AA#16 from h.supply,
    show W 0x058A#16 = V 0x058A#16 from h.gain]
  cases sp <;> rfl

theorem compensation_640 (V : Word → Word) (sp : Subpage) :
    (Mlx90640Memory.readings V sp).compensationPixel = (V (layout640.cp sp)).toInt := by cases sp <;> rfl
theorem compensation_641 (V : Word → Word) (sp : Subpage) :
    (Mlx90641Memory.readings V sp).compensationPixel = (V (layout641.cp sp)).toInt := by cases sp <;> rfl

theorem pixel_difference_640 {V W : Word → Word} (h : SameReadings layout640 V W) (em : ℝ) (given given' : Option ℝ) (sp : Subpage) {i : Nat}
    (hi : i < 768) :
    (Mlx90640Memory.pixel V em given sp i).signal - (Mlx90640Memory.pixel W em given' sp i).signal =
      rawDifference (Ee640.calibration (eepromOf V)) layout640 (BitVec.ofNat 16 (0x0400 + i)) sp V W / em := by
  have hp : Mlx90640Memory.pixel W em given' sp i =
      { Mlx90640Memory.pixel V em given sp i with
        readings := Mlx90640Memory.readings W sp
        raw := (W (BitVec.ofNat 16 (0x0400 + i))).toInt
        given := given' } := same_camera_pixel_640 h.toSameCamera em given' sp hi
  rw [signal_difference (by rw [hp]) (by
    rw [hp]
    dsimp only
    rw [SameReadings.readings_640 h sp]
    rfl), hp]
  show _ / (_ : ℝ) * (_ - _ * ((((Mlx90640Memory.readings V sp).compensationPixel : Int) : ℝ) -
    (((Mlx90640Memory.readings W sp).compensationPixel : Int) : ℝ))) / _ = _
  rw [compensation_640, compensation_640]
  rfl

theorem pixel_difference_641 {V W : Word → Word} (h : SameReadings layout641 V W) (D : Nat → BitVec 11) (em : ℝ) (given given' : Option ℝ)
    (sp : Subpage) (i : Nat) :
    (Mlx90641Memory.pixel V D em given sp i).signal - (Mlx90641Memory.pixel W D em given' sp i).signal =
      rawDifference (Ee641.calibration D) layout641 (Mlx90641Memory.address sp i) sp V W / em := by
  have hp : Mlx90641Memory.pixel W D em given' sp i =
      { Mlx90641Memory.pixel V D em given sp i with
        readings := Mlx90641Memory.readings W sp
        raw := (W (Mlx90641Memory.address sp i)).toInt
        given := given' } := same_camera_pixel_641 h.toSameCamera D em given' sp i
  rw [signal_difference (by rw [hp]) (by
    rw [hp]
    dsimp only
    rw [SameReadings.readings_641 h sp]
    rfl), hp]
  show _ / (_ : ℝ) * (_ - _ * ((((Mlx90641Memory.readings V sp).compensationPixel : Int) : ℝ) -
    (((Mlx90641Memory.readings W sp).compensationPixel : Int) : ℝ))) / _ = _
  rw [compensation_641, compensation_641]
  rfl

/-- **C104 (MLX90640, exact arithmetic).** Two raw images of the same subpage, made with the same emissivity, on any buses and after
any calls, of frames that were heard to differ in pixels and compensation pixels only: the difference of the two values of a measured
pixel is the difference of its words, less the gradient coefficient times the difference of the words of the compensation pixel, times
the gain compensation, divided by the emissivity. Offsets and their drift with temperature and supply, and the interleaving
compensation, cancel. -/
theorem C104_exact_640 {V W : Word → Word} {em : ℝ} {refl refl' : Option ℝ} {sp : Subpage} {dest dest' old old' : List ℝ}
    {tA tA' : Option ℝ} (h1 : Taken Driver.new640 24 .raw V em refl sp dest dest' tA)
    (h2 : Taken Driver.new640 24 .raw W em refl' sp old old' tA') (hreg : Ee640.Regular (eepromOf V))
    (hv : Fits16 ((V 0x072A#16).toInt - (Ee640.calibration (eepromOf V)).vdd25)) (h : SameReadings layout640 V W)
    (i : Nat) (hi : i < dest.length ∧ i < old.length) (hm : Mlx90640Memory.measured V sp i) :
    ∃ x y, dest'[i]? = some x ∧ old'[i]? = some y ∧
      x - y = rawDifference (Ee640.calibration (eepromOf V)) layout640 (BitVec.ofNat 16 (0x0400 + i)) sp V W / em := by
  have hs := SameCamera.sameEeprom h.toSameCamera
  obtain ⟨-, a2⟩ := taken_640 h1 hreg hv
  obtain ⟨-, b2⟩ := taken_640 h2 ((SameCamera.sameEeprom (SameCamera.symm h.toSameCamera)).regular hreg) (by
    rw [show W 0x072A#16 = V 0x072A#16 from h.supply, hs.calibration]; exact hv)
  refine ⟨_, _, (a2.2 i).1 hm hi.1, (b2.2 i).1 ?_ hi.2, pixel_difference_640 h em refl refl' sp hm.1⟩
  unfold Mlx90640Memory.measured at hm ⊢
  rw [h.control]; exact hm

/-- **C104 (MLX90641, exact arithmetic).** The same for the MLX90641. -/
theorem C104_exact_641 {V W : Word → Word} {em : ℝ} {refl refl' : Option ℝ} {sp : Subpage} {dest dest' old old' : List ℝ}
    {tA tA' : Option ℝ} (h1 : Taken Driver.new641 12 .raw V em refl sp dest dest' tA)
    (h2 : Taken Driver.new641 12 .raw W em refl' sp old old' tA') (D : Nat → BitVec 11) (hreg : Ee641.Regular D)
    (hD : ∀ a ∈ Ee641.readAddresses 192, WithinOneBit (eepromOf V a) (codeword (D a)))
    (hv : Fits16 ((V 0x05AA#16).toInt - (Ee641.calibration D).vdd25)) (h : SameReadings layout641 V W)
    (i : Nat) (hi : i < dest.length ∧ i < old.length) (hm : i < 192) :
    ∃ x y, dest'[i]? = some x ∧ old'[i]? = some y ∧
      x - y = rawDifference (Ee641.calibration D) layout641 (Mlx90641Memory.address sp i) sp V W / em := by
  have hs := SameCamera.sameEeprom h.toSameCamera
  obtain ⟨-, a2⟩ := taken_641 h1 hreg hD hv
  obtain ⟨-, b2⟩ := taken_641 h2 hreg (fun a ha => by
    obtain ⟨b1, b2, _⟩ := readAddresses_bounds ha
    rw [hs a (by omega) b2]
    exact hD a ha) (by rw [show W 0x05AA#16 = V 0x05AA#16 from h.supply]; exact hv)
  exact ⟨_, _, (a2.2 i).1 hm hi.1, (b2.2 i).1 hm hi.2, pixel_difference_641 h D em refl refl' sp i⟩

section
variable {F : Type} [F32Ops F] [Binary32 F]

theorem within_difference {v w : F} {a b e f : ℝ} (hv : Within v a e) (hw : Within w b f) :
    ∃ x y, Is v x ∧ Is w y ∧ |x - y - (a - b)| ≤ e + f := by
  obtain ⟨x, x1, x2⟩ := hv
  obtain ⟨y, y1, y2⟩ := hw
  refine ⟨x, y, x1, y1, ?_⟩
  have : x - y - (a - b) = (x - a) - (y - b) := by ring
  rw [this]
  exact (abs_sub _ _).trans (add_le_add x2 y2)

/-- **C104 (MLX90640, binary32).** In binary32 arithmetic, up to the bounds of the rounding errors of the two values (C71). -/
theorem C104_rounded_640 {V W : Word → Word} {x : F} {refl refl' : Option F} {sp : Subpage} {dest dest' old old' : List F}
    {tA tA' : Option F} (h1 : Taken Driver.new640 24 .raw V x refl sp dest dest' tA)
    (h2 : Taken Driver.new640 24 .raw W x refl' sp old old' tA') (hreg : Ee640.Regular (eepromOf V))
    {δ : ℝ} (hp : AccuratePowers F δ) (hδ : δ ≤ 1 / 2 ^ 22) {em : ℝ} {given given' : Option ℝ} (hem : Is x em)
    (hgiven : Option.Rel Is refl given) (hgiven' : Option.Rel Is refl' given') (h : SameReadings layout640 V W)
    (i : Nat) (hi : i < dest.length ∧ i < old.length) (hm : Mlx90640Memory.measured V sp i) :
    let p := Mlx90640Memory.pixel V em given sp i
    let q := Mlx90640Memory.pixel W em given' sp i
    p.Evaluable → q.Evaluable → ∃ v w y z, dest'[i]? = some v ∧ old'[i]? = some w ∧ Is v y ∧ Is w z ∧
      |y - z - rawDifference (Ee640.calibration (eepromOf V)) layout640 (BitVec.ofNat 16 (0x0400 + i)) sp V W / em| ≤
        p.signalError + q.signalError := by
  intro p q gp gq
  obtain ⟨-, a2⟩ := taken_near_640 h1 hreg hp hδ hem hgiven
  obtain ⟨-, b2⟩ := taken_near_640 h2 ((SameCamera.sameEeprom (SameCamera.symm h.toSameCamera)).regular hreg) hp hδ hem hgiven'
  obtain ⟨v, v1, v2⟩ := a2 i hi.1 hm gp
  obtain ⟨w, w1, w2⟩ := b2 i hi.2 (by unfold Mlx90640Memory.measured at hm ⊢; rw [h.control]; exact hm) gq
  obtain ⟨y, z, y1, z1, yz⟩ := within_difference v2 w2
  refine ⟨v, w, y, z, v1, w1, y1, z1, ?_⟩
  rw [← pixel_difference_640 h em given given' sp hm.1]
  exact yz

/-- **C104 (MLX90641, binary32).** The same for the MLX90641. -/
theorem C104_rounded_641 {V W : Word → Word} {x : F} {refl refl' : Option F} {sp : Subpage} {dest dest' old old' : List F}
    {tA tA' : Option F} (h1 : Taken Driver.new641 12 .raw V x refl sp dest dest' tA)
    (h2 : Taken Driver.new641 12 .raw W x refl' sp old old' tA') (D : Nat → BitVec 11) (hreg : Ee641.Regular D)
    (hD : ∀ a ∈ Ee641.readAddresses 192, WithinOneBit (eepromOf V a) (codeword (D a))) (hmod : ModerateScales D)
    {δ : ℝ} (hp : AccuratePowers F δ) (hδ : δ ≤ 1 / 2 ^ 22) {em : ℝ} {given given' : Option ℝ} (hem : Is x em)
    (hgiven : Option.Rel Is refl given) (hgiven' : Option.Rel Is refl' given') (h : SameReadings layout641 V W)
    (i : Nat) (hi : i < dest.length ∧ i < old.length) (hm : i < 192) :
    let p := Mlx90641Memory.pixel V D em given sp i
    let q := Mlx90641Memory.pixel W D em given' sp i
    p.Evaluable → q.Evaluable → ∃ v w y z, dest'[i]? = some v ∧ old'[i]? = some w ∧ Is v y ∧ Is w z ∧
      |y - z - rawDifference (Ee641.calibration D) layout641 (Mlx90641Memory.address sp i) sp V W / em| ≤
        p.signalError + q.signalError := by
  intro p q gp gq
  have hs := SameCamera.sameEeprom h.toSameCamera
  obtain ⟨-, a2⟩ := taken_near_641 h1 hreg hD hmod hp hδ hem hgiven
  obtain ⟨-, b2⟩ := taken_near_641 h2 hreg (fun a ha => by
    obtain ⟨b1, b2, _⟩ := readAddresses_bounds ha
    rw [hs a (by omega) b2]
    exact hD a ha) hmod hp hδ hem hgiven'
  obtain ⟨v, v1, v2⟩ := a2 i hi.1 hm gp
  obtain ⟨w, w1, w2⟩ := b2 i hi.2 hm gq
  obtain ⟨y, z, y1, z1, yz⟩ := within_difference v2 w2
  refine ⟨v, w, y, z, v1, w1, y1, z1, ?_⟩
  rw [← pixel_difference_641 h D em given given' sp i]
  exact yz

omit [Binary32 F] in
/-- In a release build, a raw image can be made of a healthy MLX90640 with any memory, and that memory is as heard. -/
theorem raw_imaged_640 (M : Word → Word) (sp : Subpage) (dest : List F) :
    ∃ s' d d' dest', Driver.new640 .wrapping (recorded (cameraBus 0x33#8)) (M, []) 0x33#8 = (s', .ok d) ∧
      Driver.generateRawImageSubpageTo (recordedEnv ⟨.wrapping, 24, cameraBus 0x33#8⟩) sp dest d = (d', dest', .ok ()) ∧
      AsHeard 0x33#8 d'.bus.2 M ∧ d.effectiveEmissivity = (lit 1 : F) ∧ d.reflectedTemperature = none := by
  have hst := cameraBus_static 0x33#8
  have hst2 : StaticMemory (recorded (cameraBus 0x33#8)) 0x33#8 Prod.fst := static_recorded hst
  have hv := fun cam => cameraBus_serves cam 0x33#8
  have hv2 : ∀ cam, Serves (recorded (cameraBus 0x33#8)) cam 0x33#8 Prod.fst := fun cam =>
    ⟨fun s => (hv cam).read s.1, fun s => (hv cam).write s.1, fun s => (hv cam).eeprom s.1⟩
  obtain ⟨s', d, hd⟩ := ((C68_construction (F := F) .wrapping _ (M, []) _ hst2).1 (hv2 _)).2 (Or.inl rfl)
  obtain ⟨hmem, c, hc, hcal⟩ := new_static hst2 hd
  let env : Env ((Word → Word) × List (Txn Unit Unit)) Unit Unit := recordedEnv ⟨.wrapping, 24, cameraBus 0x33#8⟩
  have hok := (C68_healthy_camera_works .wrapping (recorded (cameraBus 0x33#8)) _ s' _ d 24 (Or.inl ⟨rfl, hd⟩) hst2 (hv2 _) (Or.inl rfl) [] d
    .start).2 (.generateRawImageSubpageTo sp dest)
  have hok : (discardImage (Driver.generateRawImageSubpageTo env sp dest d)).2 = .ok () := hok
  have heard := C99_healthy_camera .wrapping (cameraBus 0x33#8) (M, []) s' 0x33#8 d 24 id (Or.inl ⟨rfl, hd⟩) hst (hv _)
    (fun a w h => nomatch h) [.generateRawImageSubpageTo sp dest]
  have heard : AsHeard 0x33#8 (discardImage (Driver.generateRawImageSubpageTo env sp dest d)).1.bus.2
    (discardImage (Driver.generateRawImageSubpageTo env sp dest d)).1.bus.1 := heard
  obtain ⟨hs, ha⟩ := (C39_constructed_drivers_supported .wrapping (recorded (cameraBus 0x33#8)) _ 0x33#8).1 s' d hd
  have same : (Driver.generateRawImageSubpageTo env sp dest d).1.bus.1 = M := by
    rw [rawImageSubpage_eq]
    exact (static_image (env := env) (mem := Prod.fst) hs (by rw [ha]; exact hst2) _ _ _).trans hmem
  obtain ⟨d', dest', hg⟩ : ∃ d' dest', Driver.generateRawImageSubpageTo env sp dest d = (d', dest', .ok ()) := by
    revert hok
    generalize Driver.generateRawImageSubpageTo env sp dest d = q
    intro hok
    obtain ⟨d', dest', r⟩ := q
    unfold discardImage discard at hok
    cases r with
    | ok u => exact ⟨d', dest', rfl⟩
    | err e => cases hok
    | panic => cases hok
  rw [hg] at heard same
  have heard : AsHeard 0x33#8 d'.bus.2 d'.bus.1 := heard
  have same : d'.bus.1 = M := same
  rw [same] at heard
  exact ⟨s', d, d', dest', hd, hg, heard, by rw [(new_fresh hd).1, hcal]; rfl, (new_fresh hd).2⟩

end

/-- Raw images of the memory of C75's example and of one with another raw value, made with correctly rounded operations in a release
build: everything that `C104_rounded_640` assumes holds. -/
example (r : Word) (h : |r.toInt - 512| ≤ 30) (dest : List Rounded) (hdest : dest.length = 768) :
    ∃ dest' old' tA tA', Taken (F := Rounded) Driver.new640 24 .raw sceneMemory (lit 1) none .zero dest dest' tA ∧
      Taken (F := Rounded) Driver.new640 24 .raw (noisyMemory r) (lit 1) none .zero dest old' tA' ∧
      ∃ v w y z, dest'[367]? = some v ∧ old'[367]? = some w ∧ Is v y ∧ Is w z ∧
        |y - z - rawDifference (Ee640.calibration (eepromOf sceneMemory)) layout640 0x056F#16 .zero sceneMemory (noisyMemory r)| ≤
          (Mlx90640Memory.pixel sceneMemory 1 none .zero 367).signalError +
          (Mlx90640Memory.pixel (noisyMemory r) 1 none .zero 367).signalError := by
  have made : ∀ M, ∃ dest' tA, Taken (F := Rounded) Driver.new640 24 .raw M (lit 1) none .zero dest dest' tA := by
    intro M
    obtain ⟨s', d, d', dest', hd, hg, heard, hem, hrefl⟩ := raw_imaged_640 M .zero dest
    exact ⟨dest', _, _, _, _, _, _, _, _, _, d, d, d', [], hd, rfl, hem, hrefl, heard, rfl, hg⟩
  obtain ⟨dest', tA, h1⟩ := made sceneMemory
  obtain ⟨old', tA', h2⟩ := made (noisyMemory r)
  refine ⟨dest', old', tA, tA', h1, h2, ?_⟩
  have hreg : Ee640.Regular (eepromOf sceneMemory) := SameEeprom.regular (E := eepromOf (exampleMemory words640)) scene_same example640_regular
  have hn := noisy_differs r
  have hsame : SameReadings layout640 sceneMemory (noisyMemory r) :=
    ⟨⟨fun a h1 _ => hn a (by omega), hn _ (by decide), hn _ (by decide)⟩, hn _ (by decide), hn _ (by decide), hn _ (by decide)⟩
  have ev : ∀ p : PixelInputs, p.Usual → p.Evaluable := fun p hu => (usual_computable hu (δ := 0) le_rfl (by norm_num)).1.1
  have key := C104_rounded_640 h1 h2 hreg rounded_powers (by norm_num) (em := 1)
    (is_lit (by norm_num) (by simpa using value_int (m := 1) (by norm_num))) .none .none hsame 367 (by omega) scene640.1
    (ev _ scene_usual) (ev _ (noisy_usual r h))
  rw [div_one] at key
  exact key

end Mlx.Props
