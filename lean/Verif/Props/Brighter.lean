import Verif.Props.Limits
import Verif.Props.Order
import Verif.Props.Noise
/-
C117: of two frames that differ in pixels only, the one with the larger word of a pixel has the higher value and temperature there.
-/
set_option linter.unusedSectionVars false
set_option autoImplicit false
namespace Mlx.Props
open Mlx Mlx.Spec Mlx.Proofs F32Ops

section
variable {F : Type} [F32Ops F] [Binary32 F] [Binary32Order F]

/-- The dump of the EEPROM is the same. -/
theorem differ_dump {last : Nat} (hl : last ≤ 0x0700) {V W : Word → Word} (h : DifferInPixels last V W) :
    memBytes W 0x2400#16 1664 = memBytes V 0x2400#16 1664 := by
  unfold memBytes
  refine List.map_congr_left fun i hi => ?_
  have hi := List.mem_range.1 hi
  rw [h _ ?_]
  simp only [BitVec.toNat_add, BitVec.toNat_ofNat]
  omega

/-- **C117 (raw images, MLX90640, binary32).** Two raw images of the same subpage, made with the same positive emissivity, by any drivers
on any buses after any calls and in builds of either kind, of frames that were heard to differ in the words of pixels only, by a
camera whose EEPROM has a gain that is not negative and which sent a positive gain word: if the word of a pixel is at most the other one,
then so is its value, as far as both are finite. -/
theorem C117_raw_640 {V W : Word → Word} {x : F} {em : ℝ} {refl refl' : Option F} {sp : Subpage} {dest dest' old old' : List F} {tA uA : Option F}
    (h1 : Taken Driver.new640 24 .raw V x refl sp dest dest' tA) (h2 : Taken Driver.new640 24 .raw W x refl' sp old old' uA)
    (h : DifferInPixels 0x0700 V W) (hem : Is x em) (hpos : 0 < em) (hgain : 0 ≤ (V 0x2430#16).toInt) (hr : 0 < (V 0x070A#16).toInt)
    (i : Nat) (hm : Mlx90640Memory.measured V sp i)
    (hle : (V (BitVec.ofNat 16 (0x0400 + i))).toInt ≤ (W (BitVec.ofNat 16 (0x0400 + i))).toInt) {v w : F} {y z : ℝ}
    (hv : dest'[i]? = some v) (hw : old'[i]? = some w) (hy : Is v y) (hz : Is w z) : y ≤ z := by
  obtain ⟨c, px, e1, hk, ⟨t1, e2⟩, e3⟩ := taken_exactly_640 h1
  obtain ⟨c', px', f1, -, ⟨t2, f2⟩, f3⟩ := taken_exactly_640 h2
  rw [differ_dump le_rfl h] at f1
  obtain rfl := Res.ok.inj (e1.symm.trans f1)
  have hc : W 0x800D#16 = V 0x800D#16 := h _ (by decide)
  have hrd : Mlx90640Memory.readings W sp = Mlx90640Memory.readings V sp := by
    unfold Mlx90640Memory.readings
    rw [h 0x0700#16 (by decide), h 0x0720#16 (by decide), h 0x072A#16 (by decide), h 0x070A#16 (by decide), h 0x0708#16 (by decide),
      h 0x0728#16 (by decide)]
  have hmW : Mlx90640Memory.measured W sp i := by
    unfold Mlx90640Memory.measured at hm ⊢
    rw [hc]; exact hm
  dsimp only at e2 f2
  rw [hc, hrd] at f2
  obtain ⟨a1, a2, a3⟩ := e3 i hm
  obtain ⟨-, b2, b3⟩ := f3 i hmW
  have hg : Is c.toCalib.gain (((V 0x2430#16).toInt : Int) : ℝ) := by
    obtain ⟨-, -, rfl⟩ := accepted640 e1
    have e : eepromWord (memBytes V 0x2400#16 1664) 0x2430 = V 0x2430#16 := eepromWord_memBytes _ (by decide) (by decide)
    show Is (ofInt (signedAt (eepromWord (memBytes V 0x2400#16 1664) 0x2430) 0 16) : F) _
    rw [signedAt_word, e]
    refine is_ofInt ?_
    have := (V 0x2430#16).toInt_lt
    have := (V 0x2430#16).le_toInt
    rw [abs_lt]
    constructor <;> omega
  refine C77_raw_images_keep_order .wrapping c.toCalib 768 hk x _ em _ hem hpos hg (by exact_mod_cast hgain) _ ⟨hr, ?_⟩ px px' sp _ _ dest old
    dest' old' t1 t2 e2 f2 i hm.1 a1 _ _ _ _ a2 a3 b2 b3 ?_ v w hv hw y z hy hz
  · show (V 0x070A#16).toInt ≤ 32767
    have := (V 0x070A#16).toInt_lt
    omega
  · rw [be16_toBe, be16_toBe]; exact hle

/-- **C117 (raw images, MLX90641, binary32).** The same for the MLX90641, whose calibration cannot have a negative gain. -/
theorem C117_raw_641 {V W : Word → Word} {x : F} {em : ℝ} {refl refl' : Option F} {sp : Subpage} {dest dest' old old' : List F} {tA uA : Option F}
    (h1 : Taken Driver.new641 12 .raw V x refl sp dest dest' tA) (h2 : Taken Driver.new641 12 .raw W x refl' sp old old' uA)
    (h : DifferInPixels 0x0580 V W) (hem : Is x em) (hpos : 0 < em) (hr : 0 < (V 0x058A#16).toInt)
    (i : Nat) (hm : i < 192)
    (hle : (V (Mlx90641Memory.address sp i)).toInt ≤ (W (Mlx90641Memory.address sp i)).toInt) {v w : F} {y z : ℝ}
    (hv : dest'[i]? = some v) (hw : old'[i]? = some w) (hy : Is v y) (hz : Is w z) : y ≤ z := by
  obtain ⟨c, px, e1, hk, ⟨t1, e2⟩, e3⟩ := taken_exactly_641 h1
  obtain ⟨c', px', f1, -, ⟨t2, f2⟩, f3⟩ := taken_exactly_641 h2
  rw [differ_dump (by decide) h] at f1
  obtain rfl := Res.ok.inj (e1.symm.trans f1)
  have hc : W 0x800D#16 = V 0x800D#16 := h _ (by decide)
  have hrd : Mlx90641Memory.readings W sp = Mlx90641Memory.readings V sp := by
    unfold Mlx90641Memory.readings
    rw [h 0x0580#16 (by decide), h 0x05A0#16 (by decide), h 0x05AA#16 (by decide), h 0x058A#16 (by decide), h 0x0588#16 (by decide),
      h 0x05A8#16 (by decide)]
  dsimp only at e2 f2
  rw [hc, hrd] at f2
  obtain ⟨a1, a2, a3⟩ := e3 i hm
  obtain ⟨-, b2, b3⟩ := f3 i hm
  obtain ⟨g, hg, hg0⟩ : ∃ g : ℝ, Is c.toCalib.gain g ∧ 0 ≤ g := by
    obtain ⟨D, hD⟩ := holds_of_accepted e1
    obtain ⟨-, rfl⟩ := decode_of_accepted e1 hD
    refine ⟨(((Ee641.combined (Ee641.widen D) 0x2424).toNat : Int) : ℝ), ?_, by positivity⟩
    show Is (ofInt ((Ee641.combined (Ee641.widen D) 0x2424).toNat : Int) : F) _
    refine is_ofInt ?_
    have := (Ee641.combined (Ee641.widen D) 0x2424).isLt
    rw [abs_lt]
    constructor <;> omega
  refine C77_raw_images_keep_order .wrapping c.toCalib 192 hk x _ em _ hem hpos hg hg0 _ ⟨hr, ?_⟩ px px' sp _ _ dest old
    dest' old' t1 t2 e2 f2 i hm a1 _ _ _ _ a2 a3 b2 b3 ?_ v w hv hw y z hy hz
  · show (V 0x058A#16).toInt ≤ 32767
    have := (V 0x058A#16).toInt_lt
    omega
  · rw [be16_toBe, be16_toBe]; exact hle

end

/-! ### Temperatures -/

/-- Of two usual measurements that differ in the raw value only, the larger one is the hotter one. -/
theorem usual_mono {p : PixelInputs} {r : Int} (h : p.Usual) (h' : ({ p with raw := r } : PixelInputs).Usual)
    (hg : 0 < p.table.gain / p.readings.gain) (hlt : p.raw < r) :
    p.temperature < ({ p with raw := r } : PixelInputs).temperature := by
  have hε : 0 < p.emissivity := lt_of_lt_of_le (by norm_num) h.emissivity.1
  have hα : 0 < p.sensitivity := lt_of_lt_of_le (by norm_num) h.sensitivity.1
  have hm : ∀ {v : ℝ}, |v| ≤ p.sensitivity * p.radiation / 2 → Measured v p.sensitivity p.radiation := by
    intro v hv
    have hr1 := h.radiation.1
    have hr2 := h.radiation.2
    have : |v / p.sensitivity| ≤ p.radiation / 2 := by
      rw [abs_div, abs_of_pos hα, div_le_iff₀ hα]
      linarith
    have := abs_le.1 this
    norm_num at hr1 hr2
    unfold Measured
    constructor <;> norm_num <;> linarith [this.1, this.2]
  have hs : p.signal < ({ p with raw := r } : PixelInputs).signal := by
    have : ({ p with raw := r } : PixelInputs).signal - p.signal = p.table.gain / p.readings.gain * ((r - p.raw : Int) : ℝ) / p.emissivity := by
      unfold PixelInputs.signal pixelSignal Datasheet.compensatedSignal
      rw [sub_sub_sub_cancel_right]
      unfold Datasheet.signal
      push_cast
      rw [← sub_div]
      congr 1
      ring
    have hd : (0 : ℝ) < ((r - p.raw : Int) : ℝ) := by exact_mod_cast (by omega : 0 < r - p.raw)
    have := div_pos (mul_pos hg hd) hε
    linarith
  refine object_strictMono (v := p.signal) hα ?_ ?_ h.kSTo (hm h.contrast) (hm h'.contrast) hs
  · exact le_trans (by norm_num) h.radiation.1
  · exact h.radiation.2.trans (by norm_num)

/-- **C117 (temperatures, MLX90640).** Two thermal images, in exact arithmetic, of frames that were heard to differ in the words of pixels
only (settings, drivers and buses as before): where both are usual measurements (C97) and the compensated gain is positive, the larger
word of a pixel has the higher temperature. -/
theorem C117_temperatures_640 {V W : Word → Word} {em : ℝ} {refl : Option ℝ} {sp : Subpage} {dest dest' old old' : List ℝ}
    (h1 : Imaged Driver.new640 24 V em refl sp dest dest') (h2 : Imaged Driver.new640 24 W em refl sp old old')
    (hreg : Ee640.Regular (eepromOf V)) (h : DifferInPixels 0x0700 V W) (i : Nat) (hm : Mlx90640Memory.measured V sp i) (hi : i < dest.length ∧ i < old.length)
    (hlt : (V (BitVec.ofNat 16 (0x0400 + i))).toInt < (W (BitVec.ofNat 16 (0x0400 + i))).toInt) :
    let p := Mlx90640Memory.pixel V em refl sp i
    p.Usual → (Mlx90640Memory.pixel W em refl sp i).Usual → 0 < p.table.gain / p.readings.gain →
      ∃ x y, dest'[i]? = some x ∧ old'[i]? = some y ∧ x < y := by
  intro p hp hq hg
  have hv : Fits16 ((V 0x072A#16).toInt - (Ee640.calibration (eepromOf V)).vdd25) := hp.plausible.vdd
  have hs := differ_eeprom le_rfl h
  have hc : W 0x800D#16 = V 0x800D#16 := h _ (by decide)
  have hmW : Mlx90640Memory.measured W sp i := by
    unfold Mlx90640Memory.measured at hm ⊢
    rw [hc]; exact hm
  have a1 := imaged_drawn_640 h1 hreg hv
  have a2 := imaged_drawn_640 h2 (differ_eeprom le_rfl (fun a ha => (h a ha).symm) |>.regular hreg) (by
    rw [h 0x072A#16 (by decide), hs.calibration]; exact hv)
  refine ⟨_, _, ((a1.2 i).1 hm hi.1), ((a2.2 i).1 hmW hi.2), ?_⟩
  have hpq := differ_pixel_640 h em refl sp hm.1
  have key := usual_mono (p := p) (r := (W (BitVec.ofNat 16 (0x0400 + i))).toInt) hp (by rw [← hpq]; exact hq) hg hlt
  rw [← hpq] at key
  exact key

/-- **C117 (temperatures, MLX90641).** The same for the MLX90641. -/
theorem C117_temperatures_641 {V W : Word → Word} {em : ℝ} {refl : Option ℝ} {sp : Subpage} {dest dest' old old' : List ℝ}
    (h1 : Imaged Driver.new641 12 V em refl sp dest dest') (h2 : Imaged Driver.new641 12 W em refl sp old old')
    (D : Nat → BitVec 11) (hreg : Ee641.Regular D)
    (hD : ∀ a ∈ Ee641.readAddresses 192, WithinOneBit (eepromOf V a) (codeword (D a)))
    (h : DifferInPixels 0x0580 V W) (i : Nat) (hm : i < 192) (hi : i < dest.length ∧ i < old.length)
    (hlt : (V (Mlx90641Memory.address sp i)).toInt < (W (Mlx90641Memory.address sp i)).toInt) :
    let p := Mlx90641Memory.pixel V D em refl sp i
    p.Usual → (Mlx90641Memory.pixel W D em refl sp i).Usual → 0 < p.table.gain / p.readings.gain →
      ∃ x y, dest'[i]? = some x ∧ old'[i]? = some y ∧ x < y := by
  intro p hp hq hg
  have hv : Fits16 ((V 0x05AA#16).toInt - (Ee641.calibration D).vdd25) := hp.plausible.vdd
  have hs := differ_eeprom (by decide) h
  have a1 := imaged_drawn_641 h1 D hreg hD hv
  have a2 := imaged_drawn_641 h2 D hreg (fun a ha => by
    obtain ⟨b1, b2, _⟩ := readAddresses_bounds ha
    rw [hs a (by omega) b2]
    exact hD a ha) (by rw [h 0x05AA#16 (by decide)]; exact hv)
  refine ⟨_, _, ((a1.2 i).1 hm hi.1), ((a2.2 i).1 hm hi.2), ?_⟩
  have hpq := differ_pixel_641 h D em refl sp i
  have key := usual_mono (p := p) (r := (W (Mlx90641Memory.address sp i)).toInt) hp (by rw [← hpq]; exact hq) hg hlt
  rw [← hpq] at key
  exact key

/-! ### These claims say something about concrete cameras -/

/-- In a release build, an image can be made of a healthy camera with any settings. -/
theorem set_image {F : Type} [F32Ops F] (M : Word → Word) (x : F) (refl : Option F) (sp : Subpage) (dest : List F) {n : Nat}
    {s' : (Word → Word) × List (Txn Unit Unit)} {d : Driver F ((Word → Word) × List (Txn Unit Unit))}
    (hn : n = 24 ∧ Driver.new640 .wrapping (recorded (cameraBus 0x33#8)) (M, []) 0x33#8 = (s', .ok d) ∨
      n = 12 ∧ Driver.new641 .wrapping (recorded (cameraBus 0x33#8)) (M, []) 0x33#8 = (s', .ok d)) :
    ∃ d' dest', Driver.generateImageSubpageTo (recordedEnv ⟨.wrapping, n, cameraBus 0x33#8⟩) sp dest
        (runOps (recordedEnv ⟨.wrapping, n, cameraBus 0x33#8⟩) [.overrideEmissivity x, .setReflectedTemperature refl] d) = (d', dest', .ok ()) ∧
      AsHeard 0x33#8 d'.bus.2 M := by
  have hst := cameraBus_static 0x33#8
  have hst2 : StaticMemory (recorded (cameraBus 0x33#8)) 0x33#8 Prod.fst := static_recorded hst
  have hv := fun cam => cameraBus_serves cam 0x33#8
  have hv2 : ∀ cam, Serves (recorded (cameraBus 0x33#8)) cam 0x33#8 Prod.fst := fun cam =>
    ⟨fun s => (hv cam).read s.1, fun s => (hv cam).write s.1, fun s => (hv cam).eeprom s.1⟩
  have hmem : d.bus.1 = M := by
    rcases hn with ⟨-, hd⟩ | ⟨-, hd⟩
    · exact (new_static hst2 hd).1
    · exact (new_static hst2 hd).1
  let env : Env ((Word → Word) × List (Txn Unit Unit)) Unit Unit := recordedEnv ⟨.wrapping, n, cameraBus 0x33#8⟩
  let d1 := runOps env [.overrideEmissivity x, .setReflectedTemperature refl] d
  have hok := (C68_healthy_camera_works .wrapping (recorded (cameraBus 0x33#8)) _ s' _ d n hn hst2 (hv2 _) (Or.inl rfl) _ d1
    ((Session.start.call (.overrideEmissivity x)).call (.setReflectedTemperature refl))).2 (.generateImageSubpageTo sp dest)
  have hok : (discardImage (Driver.generateImageSubpageTo env sp dest d1)).2 = .ok () := hok
  have heard := C99_healthy_camera .wrapping (cameraBus 0x33#8) (M, []) s' 0x33#8 d n id hn hst (hv _)
    (fun a w h => nomatch h) [.overrideEmissivity x, .setReflectedTemperature refl, .generateImageSubpageTo sp dest]
  have heard : AsHeard 0x33#8 (discardImage (Driver.generateImageSubpageTo env sp dest d1)).1.bus.2
    (discardImage (Driver.generateImageSubpageTo env sp dest d1)).1.bus.1 := heard
  obtain ⟨hs, ha⟩ : Supported env d ∧ d.addr = 0x33#8 := by
    rcases hn with ⟨rfl, hd⟩ | ⟨rfl, hd⟩
    · exact (C39_constructed_drivers_supported .wrapping (recorded (cameraBus 0x33#8)) _ 0x33#8).1 s' d hd
    · exact (C39_constructed_drivers_supported .wrapping (recorded (cameraBus 0x33#8)) _ 0x33#8).2 s' d hd
  have hs1 : Supported env d1 := ⟨hs.1, hs.2, hs.3⟩
  have same : (Driver.generateImageSubpageTo env sp dest d1).1.bus.1 = M := by
    rw [imageSubpage_eq]
    exact (static_image (env := env) (mem := Prod.fst) hs1 (by show StaticMemory _ d.addr _; rw [ha]; exact hst2) _ _ _).trans hmem
  obtain ⟨d', dest', hg⟩ : ∃ d' dest', Driver.generateImageSubpageTo env sp dest d1 = (d', dest', .ok ()) := by
    revert hok
    generalize Driver.generateImageSubpageTo env sp dest d1 = q
    intro hok
    obtain ⟨d', dest', r⟩ := q
    unfold discardImage discard at hok
    cases r with
    | ok u => exact ⟨d', dest', rfl⟩
    | err e => cases hok
    | panic => cases hok
  rw [hg] at heard same
  have heard : AsHeard 0x33#8 d'.bus.2 d'.bus.1 := heard
  have same : d'.bus.1 = M := same
  rw [same] at heard
  exact ⟨d', dest', hg, heard⟩

theorem noisy_regular (r : Word) : Ee640.Regular (eepromOf sceneMemory) ∧
    (noisyMemory r (BitVec.ofNat 16 (0x0400 + 367))) = r ∧ (sceneMemory (BitVec.ofNat 16 (0x0400 + 367))).toInt = 512 := by
  refine ⟨SameEeprom.regular (E := eepromOf (exampleMemory words640)) scene_same example640_regular, ?_, by decide +kernel⟩
  unfold noisyMemory setWord
  rw [if_pos (by decide)]

/-- Raw images, with correctly rounded operations, of the memory of C75's example and of one with any larger raw value. -/
example (r : Word) (h : 512 ≤ r.toInt) (dest old : List Rounded) (v w : Rounded) (y z : ℝ) :
    ∃ dest' old' tA uA, Taken Driver.new640 24 .raw sceneMemory (lit 1 : Rounded) none .zero dest dest' tA ∧
      Taken Driver.new640 24 .raw (noisyMemory r) (lit 1 : Rounded) none .zero old old' uA ∧
      (dest'[367]? = some v → old'[367]? = some w → Is v y → Is w z → y ≤ z) := by
  have made : ∀ M dest, ∃ dest' tA, Taken (F := Rounded) Driver.new640 24 .raw M (lit 1) none .zero dest dest' tA := by
    intro M dest
    obtain ⟨s', d, d', dest', hd, hg, heard, hem, hrefl⟩ := raw_imaged_640 M .zero dest
    exact ⟨dest', _, _, _, _, _, _, _, _, _, d, d, d', [], hd, rfl, hem, hrefl, heard, rfl, hg⟩
  obtain ⟨dest', tA, h1⟩ := made sceneMemory dest
  obtain ⟨old', uA, h2⟩ := made (noisyMemory r) old
  obtain ⟨-, e1, e2⟩ := noisy_regular r
  refine ⟨dest', old', tA, uA, h1, h2, fun hv hw hy hz => ?_⟩
  exact C117_raw_640 h1 h2 (noisy_differs r) (is_lit (by norm_num) (by simpa using value_int (m := 1) (by norm_num))) one_pos
    (by decide +kernel) (by decide +kernel) 367 scene640.1 (by rw [e1, e2]; exact h) hv hw hy hz

/-- And for the MLX90641. -/
example (r : Word) (h : -100 ≤ r.toInt) (dest old : List Rounded) (v w : Rounded) (y z : ℝ) :
    ∃ dest' old' tA uA, Taken Driver.new641 12 .raw memory641 (used641 Rounded) none .zero dest dest' tA ∧
      Taken Driver.new641 12 .raw (noisyMemory641 r) (used641 Rounded) none .zero old old' uA ∧
      (dest'[100]? = some v → old'[100]? = some w → Is v y → Is w z → y ≤ z) := by
  obtain ⟨-, ⟨dest', tA, h1⟩, -⟩ := made_641 memory641 memory641_holds dest
  obtain ⟨-, ⟨old', uA, h2⟩, -⟩ := made_641 (noisyMemory641 r) (noisy641_holds r) old
  refine ⟨dest', old', tA, uA, h1, h2, fun hv hw hy hz => ?_⟩
  have e1 : (memory641 (Mlx90641Memory.address .zero 100)).toInt = -100 := by decide +kernel
  have e2 : (noisyMemory641 r (Mlx90641Memory.address .zero 100)).toInt = r.toInt := noisy641_raw r
  exact C117_raw_641 h1 h2 (noisy641_differs r) used641_is (by norm_num) (by decide +kernel) 100 (by decide) (by rw [e1, e2]; exact h) hv hw hy hz

/-- The temperatures of these cameras, in exact arithmetic: pixel 367 of the MLX90640 shows more with any raw value from 513 to 542. -/
example (r : Word) (h : 512 < r.toInt ∧ r.toInt ≤ 542) (dest : List ℝ) (hdest : dest.length = 768) :
    ∃ dest' old', Imaged Driver.new640 24 sceneMemory (1 : ℝ) none .zero dest dest' ∧
      Imaged Driver.new640 24 (noisyMemory r) (1 : ℝ) none .zero dest old' ∧ ∃ x y, dest'[367]? = some x ∧ old'[367]? = some y ∧ x < y := by
  have made : ∀ M, ∃ dest', Imaged Driver.new640 24 M (1 : ℝ) none .zero dest dest' := by
    intro M
    obtain ⟨s', d, d', dest', hd, -, -, -, -⟩ := imaged_640 (F := ℝ) M .zero dest
    obtain ⟨d', dest', hg, heard⟩ := set_image (n := 24) M (1 : ℝ) none .zero dest (Or.inl ⟨rfl, hd⟩)
    exact ⟨dest', _, _, _, _, _, _, _, _, d, _, d', _, hd, rfl, rfl, rfl, heard, Or.inl hg⟩
  obtain ⟨dest', h1⟩ := made sceneMemory
  obtain ⟨old', h2⟩ := made (noisyMemory r)
  obtain ⟨e0, e1, e2⟩ := noisy_regular r
  obtain ⟨hu, -, -, hg, -⟩ := scene_usual_well
  exact ⟨dest', old', h1, h2, C117_temperatures_640 h1 h2 e0 (noisy_differs r) 367 scene640.1 (by omega) (by rw [e1, e2]; exact h.1)
    hu (noisy_usual r (by rw [abs_le]; constructor <;> omega)) (by linarith)⟩

/-- Pixel 100 of the MLX90641 does with any from -99 to -70. -/
example (r : Word) (h : -100 < r.toInt ∧ r.toInt ≤ -70) (dest : List ℝ) (hdest : dest.length = 192) :
    ∃ dest' old', Imaged Driver.new641 12 memory641 (243 / 256 : ℝ) none .zero dest dest' ∧
      Imaged Driver.new641 12 (noisyMemory641 r) (243 / 256 : ℝ) none .zero dest old' ∧
      ∃ x y, dest'[100]? = some x ∧ old'[100]? = some y ∧ x < y := by
  have made : ∀ M, (∀ a ∈ Ee641.readAddresses 192, WithinOneBit (eepromOf M a) (codeword (values641 a))) →
      ∃ dest', Imaged Driver.new641 12 M (243 / 256 : ℝ) none .zero dest dest' := by
    intro M hD
    have hst2 : StaticMemory (recorded (cameraBus 0x33#8)) 0x33#8 Prod.fst := static_recorded (cameraBus_static 0x33#8)
    have hv2 : ∀ cam, Serves (recorded (cameraBus 0x33#8)) cam 0x33#8 Prod.fst := fun cam =>
      ⟨fun s => (cameraBus_serves cam 0x33#8).read s.1, fun s => (cameraBus_serves cam 0x33#8).write s.1,
        fun s => (cameraBus_serves cam 0x33#8).eeprom s.1⟩
    obtain ⟨s', d, hd⟩ := ((C68_construction (F := ℝ) .wrapping _ (M, []) _ hst2).2 (hv2 _)).2 ⟨values641, hD, Or.inl rfl⟩
    obtain ⟨d', dest', hg, heard⟩ := set_image (n := 12) M (243 / 256 : ℝ) none .zero dest (Or.inr ⟨rfl, hd⟩)
    exact ⟨dest', _, _, _, _, _, _, _, _, d, _, d', _, hd, rfl, rfl, rfl, heard, Or.inl hg⟩
  obtain ⟨dest', h1⟩ := made memory641 memory641_holds
  obtain ⟨old', h2⟩ := made (noisyMemory641 r) (noisy641_holds r)
  obtain ⟨hu, -, -, ⟨hg, -⟩, -⟩ := usual641
  have e1 : (memory641 (Mlx90641Memory.address .zero 100)).toInt = -100 := by decide +kernel
  have e2 : (noisyMemory641 r (Mlx90641Memory.address .zero 100)).toInt = r.toInt := noisy641_raw r
  exact ⟨dest', old', h1, h2, C117_temperatures_641 h1 h2 values641 example641_regular memory641_holds (noisy641_differs r) 100 (by decide)
    (by omega) (by rw [e1, e2]; exact h.1) hu (noisy641_usual r (by rw [abs_le]; constructor <;> omega)) (by linarith)⟩

end Mlx.Props
