import Verif.Props.Law
import Verif.Props.Nearness
import Verif.Spec.Law
/-
C94 for a camera, in binary32 arithmetic.
-/
set_option linter.unusedSectionVars false
set_option autoImplicit false
namespace Mlx.Props
open Mlx Mlx.Spec Mlx.Proofs F32Ops
variable {F σ ER EW : Type} [F32Ops F] [Binary32 F] {mem : σ → Word → Word}

theorem sees_bound {p : PixelInputs} {To : ℝ} (h : p.Sees To) : |p.temperature - To| ≤ 0.6 := by
  have e : To + 273.15 - 273.15 = To := by ring
  have := law_bound (v := p.signal) (T := To + 273.15) h.sensitive (by linarith [h.object.1]) (by linarith [h.object.2])
    (le_trans (by norm_num) h.surroundings.1) (h.surroundings.2.trans (by norm_num)) h.slope (by rw [e]; exact h.law)
  rw [e] at this
  exact this

/-- What a drawing says about pixels that look at objects following the law. -/
theorem drawn_sees {measured : Nat → Prop} {p : Nat → PixelInputs} {δ : ℝ} {dest dest' : List F}
    (h : DrawnNear measured (fun i => (p i).Computable δ) (fun i => (p i).temperature) (fun i => (p i).temperatureError δ) dest dest')
    (i : Nat) (To : ℝ) (hm : measured i) (hi : i < dest.length) (hc : (p i).Computable δ) (hs : (p i).Sees To) :
    ∃ v, dest'[i]? = some v ∧ Within v To (0.6 + (p i).temperatureError δ) := by
  obtain ⟨v, v1, y, v2, v3⟩ := (h.2 i).1 hm hc hi
  refine ⟨v, v1, y, v2, ?_⟩
  have e : y - To = y - (p i).temperature + ((p i).temperature - To) := by ring
  rw [e]
  refine (abs_add_le _ _).trans ?_
  have := sees_bound hs
  linarith

/-- **C94 (MLX90640, binary32).** The whole crate, in the setting of C75: whenever an image is made, each pixel of the subpage that
looks at an object of `To` °C following the law of the sensor is set to a number within 0.6 °C, plus the error of the arithmetic
(C74), of `To`. -/
theorem C94_camera_640 (m : Mode) (b : Bus σ ER EW) (s s' : σ) (addr : Byte) (h : StaticMemory b addr mem)
    (d : Driver F σ) (hd : Driver.new640 m b s addr = (s', .ok d)) (hreg : Ee640.Regular (eepromOf (mem s)))
    (calls : List (Op F × Res (Err ER EW) Unit)) (d1 : Driver F σ) (hx : Session ⟨m, 24, b⟩ mem anyFrame d calls d1)
    (hn : ∀ c ∈ calls, ¬ ControlWriteFailed c.1 c.2) {δ : ℝ} (hp : AccuratePowers F δ) (em : ℝ)
    (given : Option ℝ) (dest dest' : List F) (d' : Driver F σ) (To : ℝ) (i : Nat) (hi : i < dest.length) :
    let env : Env σ ER EW := ⟨m, 24, b⟩
    let M := mem d1.bus
    let p := Mlx90640Memory.pixel M em given
    let right := fun sp => Mlx90640Memory.measured M sp i → (p sp i).Computable δ → (p sp i).Sees To →
      ∃ v, dest'[i]? = some v ∧ Within v To (0.6 + (p sp i).temperatureError δ)
    Is d1.effectiveEmissivity em → Option.Rel Is d1.reflectedTemperature given →
    (∀ sp, Driver.generateImageSubpageTo env sp dest d1 = (d', dest', .ok ()) → right sp) ∧
    (Driver.generateImageTo env dest d1 = (d', dest', .ok ()) → right (statusSubpage (M 0x8000#16))) ∧
    (Driver.generateImageIfReady env dest d1 = (d', dest', .ok true) → right (statusSubpage (M 0x8000#16))) := by
  intro env M p right hem hgiven
  obtain ⟨-, k1, k2, k3⟩ := C75_camera_640 m b s s' addr h d hd hreg calls d1 hx hn hp em given dest dest' d' hem hgiven
  exact ⟨fun sp hg hm hc hs => drawn_sees (k1 sp hg).2 i To hm hi hc hs,
    fun hg hm hc hs => drawn_sees (k2 hg).2 i To hm hi hc hs, fun hg hm hc hs => drawn_sees (k3 hg).2.2 i To hm hi hc hs⟩

/-- **C94 (MLX90641, binary32).** The same for the MLX90641. -/
theorem C94_camera_641 (m : Mode) (b : Bus σ ER EW) (s s' : σ) (addr : Byte) (h : StaticMemory b addr mem)
    (d : Driver F σ) (hd : Driver.new641 m b s addr = (s', .ok d)) (D : Nat → BitVec 11) (hreg : Ee641.Regular D)
    (hD : ∀ a ∈ Ee641.readAddresses 192, WithinOneBit (eepromOf (mem s) a) (codeword (D a))) (hmod : ModerateScales D)
    (calls : List (Op F × Res (Err ER EW) Unit)) (d1 : Driver F σ) (hx : Session ⟨m, 12, b⟩ mem anyFrame d calls d1)
    (hn : ∀ c ∈ calls, ¬ ControlWriteFailed c.1 c.2) {δ : ℝ} (hp : AccuratePowers F δ) (em : ℝ)
    (given : Option ℝ) (dest dest' : List F) (d' : Driver F σ) (To : ℝ) (i : Nat) (hi : i < dest.length) :
    let env : Env σ ER EW := ⟨m, 12, b⟩
    let M := mem d1.bus
    let p := Mlx90641Memory.pixel M D em given
    let right := fun sp => i < 192 → (p sp i).Computable δ → (p sp i).Sees To →
      ∃ v, dest'[i]? = some v ∧ Within v To (0.6 + (p sp i).temperatureError δ)
    Is d1.effectiveEmissivity em → Option.Rel Is d1.reflectedTemperature given →
    (∀ sp, Driver.generateImageSubpageTo env sp dest d1 = (d', dest', .ok ()) → right sp) ∧
    (Driver.generateImageTo env dest d1 = (d', dest', .ok ()) → right (statusSubpage (M 0x8000#16))) ∧
    (Driver.generateImageIfReady env dest d1 = (d', dest', .ok true) → right (statusSubpage (M 0x8000#16))) := by
  intro env M p right hem hgiven
  obtain ⟨-, k1, k2, k3⟩ := C75_camera_641 m b s s' addr h d hd D hreg hD hmod calls d1 hx hn hp em given dest dest' d' hem hgiven
  exact ⟨fun sp hg hm hc hs => drawn_sees (k1 sp hg).2 i To hm hi hc hs,
    fun hg hm hc hs => drawn_sees (k2 hg).2 i To hm hi hc hs, fun hg hm hc hs => drawn_sees (k3 hg).2.2 i To hm hi hc hs⟩

set_option maxHeartbeats 1000000 in
/-- In the memory of C75's example, pixel 367 looks at an object between 40 and 100 °C that follows the law. -/
theorem scene_sees : ∃ To, 40 ≤ To ∧ To ≤ 100 ∧ (Mlx90640Memory.pixel sceneMemory 1 none .zero 367).Sees To := by
  have hpd := scene_pixel
  generalize Mlx90640Memory.pixel sceneMemory 1 none .zero 367 = p at hpd
  generalize ht : Ee640.calibration (eepromWord example640) = t at hpd
  obtain ⟨⟨e1, e2, e3, e4, e5, e6, e7⟩, ⟨g1, g2, -, g4, g5⟩, ⟨c1, c2, c3, c4, c5⟩, -⟩ := parameters640 t ht.symm
  have hcorr : correction t 0x1901#16 = 1 := by
    unfold correction
    rw [g5]
    exact div_self (by positivity)
  have hpat : pattern 0x1901#16 = .chess := by decide
  have hV : Datasheet.deltaV t readings640 = 59 / 3168 := by
    unfold Datasheet.deltaV readings640
    rw [e1, e2]; norm_num
  have hT : Datasheet.ambient t readings640 = 136099541231863 / 3473307198907 := by
    unfold Datasheet.ambient
    rw [hV, e4, e5, e6, e7]; unfold readings640; norm_num
  have hs : Datasheet.supply t 1 readings640 = 59 / 3168 + 3.3 := by
    unfold Datasheet.supply
    rw [hV, e3]; norm_num
  have hS : Datasheet.compensatedSignal t 1 1 readings640 .zero .chess 512 (-75) (4 / 2 ^ 3) (84 / 2 ^ 14) 0 =
      5174955840091582878902627 / 9845308323733540962304 := by
    unfold Datasheet.compensatedSignal Datasheet.signal
    rw [hT, hs, g1, g4, c1, c3, c4, c5]
    unfold readings640
    simp only [Option.getD_some, Option.getD_none]
    push_cast
    norm_num
  have hα : Datasheet.sensitivity t readings640 .zero (17348 / 2 ^ 37) = 1814222945991819903 / 15275766608145338312163328 := by
    unfold Datasheet.sensitivity
    rw [hT, g2, g4, c2]; norm_num
  have pS : p.signal = 5174955840091582878902627 / 9845308323733540962304 := by
    rw [hpd]
    unfold PixelInputs.signal pixelSignal
    simp only [hcorr, hpat]
    exact hS
  have pα : p.sensitivity = 1814222945991819903 / 15275766608145338312163328 := by rw [hpd]; exact hα
  have pk : p.kSTo = -105 / 2 ^ 17 := by rw [hpd]
  have pR : p.radiation = (136099541231863 / 3473307198907 + 273.15) ^ 4 := by
    rw [hpd]
    unfold PixelInputs.radiation PixelInputs.surroundings PixelInputs.ambient
    simp only [hT, Option.getD_none]
    unfold Datasheet.reflected
    rw [div_one, sub_sub_cancel]
  have hcont : ContinuousOn (fun To : ℝ => p.sensitivity * (1 + -105 / 2 ^ 17 * To) * ((To + 273.15) ^ 4 - p.radiation)) (Set.Icc 40 100) := by
    fun_prop
  obtain ⟨To, ⟨h1, h2⟩, h3⟩ := intermediate_value_Icc (by norm_num : (40 : ℝ) ≤ 100) hcont
    (show p.signal ∈ Set.Icc _ _ from ⟨by rw [pS, pα, pR]; norm_num, by rw [pS, pα, pR]; norm_num⟩)
  exact ⟨To, h1, h2, by rw [pα]; norm_num, by rw [pk]; exact h3.symm, ⟨by linarith, h2⟩,
    ⟨by rw [pR]; norm_num, by rw [pR]; norm_num⟩, by rw [pk]; norm_num [abs_of_neg]⟩

end Mlx.Props
