import Verif.Props.Heard
import Verif.Props.Usual
/-
C100: on any bus, images in binary32 arithmetic are near the documented function of what was last heard.
-/
set_option linter.unusedSectionVars false
set_option autoImplicit false
namespace Mlx.Props
open Mlx Mlx.Spec Mlx.Proofs F32Ops
variable {F σ ER EW : Type} [F32Ops F] [Binary32 F]

theorem nearAmbient_congr {τ : Type} {t : Calib ℝ} {r : RamData} {d : Driver F σ} {e : Driver F τ}
    (h : e.ambientTemp = d.ambientTemp) (hn : NearAmbient t r e) : NearAmbient t r d := by
  unfold NearAmbient at hn ⊢
  rw [← h]
  exact hn

/-- What a driver for a camera that holds still sees, in binary32 arithmetic. -/
theorem near_still_640 {m : Mode} {addr : Byte} {V : Word → Word} {x : F} {refl : Option F} {e : Driver F (Word → Word)}
    (he : OnStill Driver.new640 m 24 addr V x refl e) (hreg : Ee640.Regular (eepromOf V))
    {δ : ℝ} (hp : AccuratePowers F δ) {em : ℝ} {given : Option ℝ} (hem : Is x em) (hgiven : Option.Rel Is refl given)
    (dest dest' : List F) (e' : Driver F (Word → Word)) :
    let still : Env (Word → Word) Unit Unit := ⟨m, 24, cameraBus addr⟩
    let p := Mlx90640Memory.pixel V em given
    let settled := fun sp => NearAmbient (Ee640.calibration (eepromOf V)) (Mlx90640Memory.readings V sp) e'
    let thermal := fun sp => DrawnNear (Mlx90640Memory.measured V sp) (fun i => (p sp i).Computable δ)
      (fun i => (p sp i).temperature) (fun i => (p sp i).temperatureError δ) dest dest'
    (∀ sp, Driver.generateRawImageSubpageTo still sp dest e = (e', dest', .ok ()) → settled sp ∧
      DrawnNear (Mlx90640Memory.measured V sp) (fun i => (p sp i).Evaluable) (fun i => (p sp i).signal)
        (fun i => (p sp i).signalError) dest dest') ∧
    (∀ sp, Driver.generateImageSubpageTo still sp dest e = (e', dest', .ok ()) → settled sp ∧ thermal sp) ∧
    (Driver.generateImageTo still dest e = (e', dest', .ok ()) →
      settled (statusSubpage (V 0x8000#16)) ∧ thermal (statusSubpage (V 0x8000#16))) := by
  obtain ⟨c, e0, h0, rfl⟩ := he
  have hb : e0.bus = V := (new_static (cameraBus_static addr) h0).1
  have main := C75_camera_640 m (cameraBus addr) V c addr (cameraBus_static addr) e0 h0 hreg _ _
    (.call (.setReflectedTemperature refl) (.call (.overrideEmissivity x) .start)) (by
      intro x hx hc
      simp only [List.nil_append, List.cons_append, List.mem_cons, List.not_mem_nil, or_false] at hx
      rcases hx with rfl | rfl <;> exact nomatch hc.1) hp em given dest dest' e'
  simp only [id] at main
  have hb2 : ((Op.setReflectedTemperature refl).exec (⟨m, 24, cameraBus addr⟩ : Env (Word → Word) Unit Unit)
      ((Op.overrideEmissivity x).exec ⟨m, 24, cameraBus addr⟩ e0).1).1.bus = V := hb
  rw [hb2] at main
  have main := main hem hgiven
  exact ⟨main.1, main.2.1, main.2.2.1⟩

/-- **C100 (MLX90640).** On any bus and after any history, in binary32 arithmetic: every measured pixel of a successful image for which
the conditions of C71 or C74 hold is within the bounds of C71 or C74 of the documented function of the words last heard and the
user's settings; the ambient temperature is within the bound of C70; and the other elements are untouched. -/
theorem C100_camera_640 (m : Mode) (b : Bus σ ER EW) (s s' : σ × List (Txn ER EW)) (addr : Byte)
    (d : Driver F (σ × List (Txn ER EW))) (hd : Driver.new640 m (recorded b) s addr = (s', .ok d)) (ops : List (Op F))
    (dest dest' : List F) (d' : Driver F (σ × List (Txn ER EW))) (V : Word → Word) (hV : AsHeard addr d'.bus.2 V)
    (hreg : Ee640.Regular (eepromOf V)) {δ : ℝ} (hp : AccuratePowers F δ) (em : ℝ)
    (given : Option ℝ) :
    let env := recordedEnv ⟨m, 24, b⟩
    let d1 := runOps env ops d
    let p := Mlx90640Memory.pixel V em given
    let settled := fun sp => NearAmbient (Ee640.calibration (eepromOf V)) (Mlx90640Memory.readings V sp) d'
    let thermal := fun sp => DrawnNear (Mlx90640Memory.measured V sp) (fun i => (p sp i).Computable δ)
      (fun i => (p sp i).temperature) (fun i => (p sp i).temperatureError δ) dest dest'
    Is d1.effectiveEmissivity em → Option.Rel Is d1.reflectedTemperature given →
    (∀ sp, Driver.generateRawImageSubpageTo env sp dest d1 = (d', dest', .ok ()) → settled sp ∧
      DrawnNear (Mlx90640Memory.measured V sp) (fun i => (p sp i).Evaluable) (fun i => (p sp i).signal)
        (fun i => (p sp i).signalError) dest dest') ∧
    (∀ sp, Driver.generateImageSubpageTo env sp dest d1 = (d', dest', .ok ()) → settled sp ∧ thermal sp) ∧
    (Driver.generateImageTo env dest d1 = (d', dest', .ok ()) →
      settled (statusSubpage (V 0x8000#16)) ∧ thermal (statusSubpage (V 0x8000#16))) ∧
    (Driver.generateImageIfReady env dest d1 = (d', dest', .ok true) →
      settled (statusSubpage (V 0x8000#16)) ∧ thermal (statusSubpage (V 0x8000#16))) := by
  intro env d1 p settled thermal hem hgiven
  obtain ⟨h1, h2, h3, h4⟩ := C99_replay_640 m b s s' addr d hd ops dest dest' d' V hV
  refine ⟨fun sp hg => ?_, fun sp hg => ?_, fun hg => ?_, fun hg => ?_⟩
  · obtain ⟨e, e', he, hi, ht⟩ := h1 sp hg
    have := (near_still_640 he hreg hp hem hgiven dest dest' e').1 sp hi
    exact ⟨nearAmbient_congr ht this.1, this.2⟩
  · obtain ⟨e, e', he, hi, ht⟩ := h2 sp hg
    have := (near_still_640 he hreg hp hem hgiven dest dest' e').2.1 sp hi
    exact ⟨nearAmbient_congr ht this.1, this.2⟩
  · obtain ⟨e, e', he, hi, ht⟩ := h3 hg
    have := (near_still_640 he hreg hp hem hgiven dest dest' e').2.2 hi
    exact ⟨nearAmbient_congr ht this.1, this.2⟩
  · obtain ⟨e, e', he, hi, ht⟩ := h4 hg
    have := (near_still_640 he hreg hp hem hgiven dest dest' e').2.2 hi
    exact ⟨nearAmbient_congr ht this.1, this.2⟩

/-- **C100 (usual measurements, MLX90640).** On any bus and after any history, with powers and roots as precise as those of the
usual libraries: a measured pixel of a successful image, whose words last heard are a usual measurement, is within 0.6 °C of the
documented temperature; and if those words are what an object of temperature `To` that follows the law of the sensor causes, within
1.2 °C of `To`. -/
theorem C100_usual_640 (m : Mode) (b : Bus σ ER EW) (s s' : σ × List (Txn ER EW)) (addr : Byte)
    (d : Driver F (σ × List (Txn ER EW))) (hd : Driver.new640 m (recorded b) s addr = (s', .ok d)) (ops : List (Op F))
    (dest dest' : List F) (d' : Driver F (σ × List (Txn ER EW))) (V : Word → Word) (hV : AsHeard addr d'.bus.2 V)
    (hreg : Ee640.Regular (eepromOf V)) {δ : ℝ} (hp : AccuratePowers F δ) (hδ : δ ≤ 1 / 2 ^ 22) (em : ℝ)
    (given : Option ℝ) (i : Nat) (hi : i < dest.length) :
    let env := recordedEnv ⟨m, 24, b⟩
    let d1 := runOps env ops d
    let p := Mlx90640Memory.pixel V em given
    let right := fun sp => Mlx90640Memory.measured V sp i → (p sp i).Usual →
      ∃ v, dest'[i]? = some v ∧ Within v (p sp i).temperature 0.6 ∧ ∀ To, (p sp i).Sees To → Within v To 1.2
    Is d1.effectiveEmissivity em → Option.Rel Is d1.reflectedTemperature given →
    (∀ sp, Driver.generateImageSubpageTo env sp dest d1 = (d', dest', .ok ()) → right sp) ∧
    (Driver.generateImageTo env dest d1 = (d', dest', .ok ()) → right (statusSubpage (V 0x8000#16))) ∧
    (Driver.generateImageIfReady env dest d1 = (d', dest', .ok true) → right (statusSubpage (V 0x8000#16))) := by
  intro env d1 p right hem hgiven
  obtain ⟨-, k1, k2, k3⟩ := C100_camera_640 m b s s' addr d hd ops dest dest' d' V hV hreg hp em given hem hgiven
  exact ⟨fun sp hg hm hu => drawn_usual hp hδ (k1 sp hg).2 i hi hm hu, fun hg hm hu => drawn_usual hp hδ (k2 hg).2 i hi hm hu,
    fun hg hm hu => drawn_usual hp hδ (k3 hg).2 i hi hm hu⟩

/-- What a driver for a camera that holds still sees, in binary32 arithmetic. -/
theorem near_still_641 {m : Mode} {addr : Byte} {V : Word → Word} {x : F} {refl : Option F} {e : Driver F (Word → Word)}
    (he : OnStill Driver.new641 m 12 addr V x refl e) {D : Nat → BitVec 11} (hreg : Ee641.Regular D)
    (hD : ∀ a ∈ Ee641.readAddresses 192, WithinOneBit (eepromOf V a) (codeword (D a))) (hmod : ModerateScales D)
    {δ : ℝ} (hp : AccuratePowers F δ) {em : ℝ} {given : Option ℝ} (hem : Is x em) (hgiven : Option.Rel Is refl given)
    (dest dest' : List F) (e' : Driver F (Word → Word)) :
    let still : Env (Word → Word) Unit Unit := ⟨m, 12, cameraBus addr⟩
    let p := Mlx90641Memory.pixel V D em given
    let settled := fun sp => NearAmbient (Ee641.calibration D) (Mlx90641Memory.readings V sp) e'
    let thermal := fun sp => DrawnNear (fun i => i < 192) (fun i => (p sp i).Computable δ)
      (fun i => (p sp i).temperature) (fun i => (p sp i).temperatureError δ) dest dest'
    (∀ sp, Driver.generateRawImageSubpageTo still sp dest e = (e', dest', .ok ()) → settled sp ∧
      DrawnNear (fun i => i < 192) (fun i => (p sp i).Evaluable) (fun i => (p sp i).signal)
        (fun i => (p sp i).signalError) dest dest') ∧
    (∀ sp, Driver.generateImageSubpageTo still sp dest e = (e', dest', .ok ()) → settled sp ∧ thermal sp) ∧
    (Driver.generateImageTo still dest e = (e', dest', .ok ()) →
      settled (statusSubpage (V 0x8000#16)) ∧ thermal (statusSubpage (V 0x8000#16))) := by
  obtain ⟨c, e0, h0, rfl⟩ := he
  have hb : e0.bus = V := (new_static (cameraBus_static addr) h0).1
  have main := C75_camera_641 m (cameraBus addr) V c addr (cameraBus_static addr) e0 h0 D hreg hD hmod _ _
    (.call (.setReflectedTemperature refl) (.call (.overrideEmissivity x) .start)) (by
      intro x hx hc
      simp only [List.nil_append, List.cons_append, List.mem_cons, List.not_mem_nil, or_false] at hx
      rcases hx with rfl | rfl <;> exact nomatch hc.1) hp em given dest dest' e'
  simp only [id] at main
  have hb2 : ((Op.setReflectedTemperature refl).exec (⟨m, 12, cameraBus addr⟩ : Env (Word → Word) Unit Unit)
      ((Op.overrideEmissivity x).exec ⟨m, 12, cameraBus addr⟩ e0).1).1.bus = V := hb
  rw [hb2] at main
  have main := main hem hgiven
  exact ⟨main.1, main.2.1, main.2.2.1⟩

/-- **C100 (MLX90641).** The same for the MLX90641. -/
theorem C100_camera_641 (m : Mode) (b : Bus σ ER EW) (s s' : σ × List (Txn ER EW)) (addr : Byte)
    (d : Driver F (σ × List (Txn ER EW))) (hd : Driver.new641 m (recorded b) s addr = (s', .ok d)) (ops : List (Op F))
    (dest dest' : List F) (d' : Driver F (σ × List (Txn ER EW))) (V : Word → Word) (hV : AsHeard addr d'.bus.2 V)
    (D : Nat → BitVec 11) (hreg : Ee641.Regular D)
    (hD : ∀ a ∈ Ee641.readAddresses 192, WithinOneBit (eepromOf V a) (codeword (D a))) (hmod : ModerateScales D) {δ : ℝ} (hp : AccuratePowers F δ) (em : ℝ)
    (given : Option ℝ) :
    let env := recordedEnv ⟨m, 12, b⟩
    let d1 := runOps env ops d
    let p := Mlx90641Memory.pixel V D em given
    let settled := fun sp => NearAmbient (Ee641.calibration D) (Mlx90641Memory.readings V sp) d'
    let thermal := fun sp => DrawnNear (fun i => i < 192) (fun i => (p sp i).Computable δ)
      (fun i => (p sp i).temperature) (fun i => (p sp i).temperatureError δ) dest dest'
    Is d1.effectiveEmissivity em → Option.Rel Is d1.reflectedTemperature given →
    (∀ sp, Driver.generateRawImageSubpageTo env sp dest d1 = (d', dest', .ok ()) → settled sp ∧
      DrawnNear (fun i => i < 192) (fun i => (p sp i).Evaluable) (fun i => (p sp i).signal)
        (fun i => (p sp i).signalError) dest dest') ∧
    (∀ sp, Driver.generateImageSubpageTo env sp dest d1 = (d', dest', .ok ()) → settled sp ∧ thermal sp) ∧
    (Driver.generateImageTo env dest d1 = (d', dest', .ok ()) →
      settled (statusSubpage (V 0x8000#16)) ∧ thermal (statusSubpage (V 0x8000#16))) ∧
    (Driver.generateImageIfReady env dest d1 = (d', dest', .ok true) →
      settled (statusSubpage (V 0x8000#16)) ∧ thermal (statusSubpage (V 0x8000#16))) := by
  intro env d1 p settled thermal hem hgiven
  obtain ⟨h1, h2, h3, h4⟩ := C99_replay_641 m b s s' addr d hd ops dest dest' d' V hV
  refine ⟨fun sp hg => ?_, fun sp hg => ?_, fun hg => ?_, fun hg => ?_⟩
  · obtain ⟨e, e', he, hi, ht⟩ := h1 sp hg
    have := (near_still_641 he hreg hD hmod hp hem hgiven dest dest' e').1 sp hi
    exact ⟨nearAmbient_congr ht this.1, this.2⟩
  · obtain ⟨e, e', he, hi, ht⟩ := h2 sp hg
    have := (near_still_641 he hreg hD hmod hp hem hgiven dest dest' e').2.1 sp hi
    exact ⟨nearAmbient_congr ht this.1, this.2⟩
  · obtain ⟨e, e', he, hi, ht⟩ := h3 hg
    have := (near_still_641 he hreg hD hmod hp hem hgiven dest dest' e').2.2 hi
    exact ⟨nearAmbient_congr ht this.1, this.2⟩
  · obtain ⟨e, e', he, hi, ht⟩ := h4 hg
    have := (near_still_641 he hreg hD hmod hp hem hgiven dest dest' e').2.2 hi
    exact ⟨nearAmbient_congr ht this.1, this.2⟩

/-- **C100 (usual measurements, MLX90641).** The same for the MLX90641. -/
theorem C100_usual_641 (m : Mode) (b : Bus σ ER EW) (s s' : σ × List (Txn ER EW)) (addr : Byte)
    (d : Driver F (σ × List (Txn ER EW))) (hd : Driver.new641 m (recorded b) s addr = (s', .ok d)) (ops : List (Op F))
    (dest dest' : List F) (d' : Driver F (σ × List (Txn ER EW))) (V : Word → Word) (hV : AsHeard addr d'.bus.2 V)
    (D : Nat → BitVec 11) (hreg : Ee641.Regular D)
    (hD : ∀ a ∈ Ee641.readAddresses 192, WithinOneBit (eepromOf V a) (codeword (D a))) (hmod : ModerateScales D) {δ : ℝ} (hp : AccuratePowers F δ) (hδ : δ ≤ 1 / 2 ^ 22) (em : ℝ)
    (given : Option ℝ) (i : Nat) (hi : i < dest.length) :
    let env := recordedEnv ⟨m, 12, b⟩
    let d1 := runOps env ops d
    let p := Mlx90641Memory.pixel V D em given
    let right := fun sp => i < 192 → (p sp i).Usual →
      ∃ v, dest'[i]? = some v ∧ Within v (p sp i).temperature 0.6 ∧ ∀ To, (p sp i).Sees To → Within v To 1.2
    Is d1.effectiveEmissivity em → Option.Rel Is d1.reflectedTemperature given →
    (∀ sp, Driver.generateImageSubpageTo env sp dest d1 = (d', dest', .ok ()) → right sp) ∧
    (Driver.generateImageTo env dest d1 = (d', dest', .ok ()) → right (statusSubpage (V 0x8000#16))) ∧
    (Driver.generateImageIfReady env dest d1 = (d', dest', .ok true) → right (statusSubpage (V 0x8000#16))) := by
  intro env d1 p right hem hgiven
  obtain ⟨-, k1, k2, k3⟩ := C100_camera_641 m b s s' addr d hd ops dest dest' d' V hV D hreg hD hmod hp em given hem hgiven
  exact ⟨fun sp hg hm hu => drawn_usual hp hδ (k1 sp hg).2 i hi hm hu, fun hg hm hu => drawn_usual hp hδ (k2 hg).2 i hi hm hu,
    fun hg hm hu => drawn_usual hp hδ (k3 hg).2 i hi hm hu⟩

omit [Binary32 F] in
/-- In a release build, an image can be made of a healthy MLX90640 with any memory, and that memory is as heard. -/
theorem imaged_640 (M : Word → Word) (sp : Subpage) (dest : List F) :
    ∃ s' d d' dest', Driver.new640 .wrapping (recorded (cameraBus 0x33#8)) (M, []) 0x33#8 = (s', .ok d) ∧
      Driver.generateImageSubpageTo (recordedEnv ⟨.wrapping, 24, cameraBus 0x33#8⟩) sp dest d = (d', dest', .ok ()) ∧
      AsHeard 0x33#8 d'.bus.2 M ∧ d.effectiveEmissivity = (lit 1 : F) ∧ d.reflectedTemperature = none := by
  have hst := cameraBus_static 0x33#8
  have hst2 : StaticMemory (recorded (cameraBus 0x33#8)) 0x33#8 Prod.fst := static_recorded hst
  have hv := fun cam => cameraBus_serves cam 0x33#8
  have hv2 : ∀ cam, Serves (recorded (cameraBus 0x33#8)) cam 0x33#8 Prod.fst := fun cam =>
    ⟨fun s => (hv cam).read s.1, fun s => (hv cam).write s.1, fun s => (hv cam).eeprom s.1⟩
  obtain ⟨s', d, hd⟩ := ((C68_construction (F := F) .wrapping _ (M, []) _ hst2).1 (hv2 _)).2 (Or.inl rfl)
  obtain ⟨hmem, c, hc, hcal⟩ := new_static hst2 hd
  let env : Env ((Word → Word) × List (Txn Unit Unit)) Unit Unit := recordedEnv ⟨.wrapping, 24, cameraBus 0x33#8⟩
  have hok := (C68_healthy_camera_works .wrapping (recorded (cameraBus 0x33#8)) _ s' _ d 24 (Or.inl ⟨rfl, hd⟩) hst2 (hv2 _) (Or.inl rfl) [] d
    .start).2 (.generateImageSubpageTo sp dest)
  have hok : (discardImage (Driver.generateImageSubpageTo env sp dest d)).2 = .ok () := hok
  have heard := C99_healthy_camera .wrapping (cameraBus 0x33#8) (M, []) s' 0x33#8 d 24 id (Or.inl ⟨rfl, hd⟩) hst (hv _)
    (fun a w h => nomatch h) [.generateImageSubpageTo sp dest]
  have heard : AsHeard 0x33#8 (discardImage (Driver.generateImageSubpageTo env sp dest d)).1.bus.2
    (discardImage (Driver.generateImageSubpageTo env sp dest d)).1.bus.1 := heard
  obtain ⟨hs, ha⟩ := (C39_constructed_drivers_supported .wrapping (recorded (cameraBus 0x33#8)) _ 0x33#8).1 s' d hd
  have same : (Driver.generateImageSubpageTo env sp dest d).1.bus.1 = M := by
    rw [imageSubpage_eq]
    exact (static_image (env := env) (mem := Prod.fst) hs (by rw [ha]; exact hst2) _ _ _).trans hmem
  obtain ⟨d', dest', hg⟩ : ∃ d' dest', Driver.generateImageSubpageTo env sp dest d = (d', dest', .ok ()) := by
    revert hok
    generalize Driver.generateImageSubpageTo env sp dest d = q
    intro hok
    obtain ⟨d', dest', r⟩ := q
    unfold discardImage discard at hok
    cases r with
    | ok u => exact ⟨d', dest', rfl⟩
    | err e => cases hok
    | panic => cases hok
  rw [hg] at heard same
  have heard : AsHeard 0x33#8 d'.bus.2 d'.bus.1 := heard
  have same : d'.bus.1 = M := same
  rw [same] at heard
  exact ⟨s', d, d', dest', hd, hg, heard, by rw [(new_fresh hd).1, hcal]; rfl, (new_fresh hd).2⟩

/-- A camera with the memory of C75's example, read with correctly rounded operations in a release build: everything that
`C100_usual_640` assumes holds for pixel 367, which is right. -/
example (dest : List Rounded) (hdest : dest.length = 768) :
    ∃ s' d d' dest', Driver.new640 .wrapping (recorded (cameraBus 0x33#8)) (sceneMemory, []) 0x33#8 = (s', .ok d) ∧
      Driver.generateImageSubpageTo (recordedEnv ⟨.wrapping, 24, cameraBus 0x33#8⟩) .zero dest d = (d', dest', .ok ()) ∧
      AsHeard 0x33#8 d'.bus.2 sceneMemory ∧
      ∃ v To, dest'[367]? = some v ∧ (Mlx90640Memory.pixel sceneMemory 1 none .zero 367).Sees To ∧ Within v To 1.2 := by
  have hreg : Ee640.Regular (eepromOf sceneMemory) := SameEeprom.regular (E := eepromOf (exampleMemory words640)) scene_same example640_regular
  obtain ⟨s', d, d', dest', hd, hg, heard, hem, hrefl⟩ := imaged_640 sceneMemory .zero dest
  obtain ⟨To, _, _, hsees⟩ := scene_sees
  have key := (C100_usual_640 .wrapping (cameraBus 0x33#8) (sceneMemory, []) s' 0x33#8 d hd [] dest dest' d' sceneMemory heard hreg
    rounded_powers (by norm_num) 1 none 367 (by omega) (by
      show Is d.effectiveEmissivity 1
      rw [hem]
      exact is_lit (by norm_num) (by simpa using value_int (m := 1) (by norm_num))) (by
      show Option.Rel Is d.reflectedTemperature none
      rw [hrefl]
      exact .none)).1 .zero hg scene640.1 scene_usual
  obtain ⟨v, v1, _, v3⟩ := key
  exact ⟨s', d, d', dest', hd, hg, heard, v, To, v1, hsees, v3 To hsees⟩

end Mlx.Props
