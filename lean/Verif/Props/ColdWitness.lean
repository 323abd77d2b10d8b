import Verif.Props.Noise
import Verif.Props.Witness641
import Verif.Props.Cold
/-
`C113_camera_640` and `C113_camera_641` say something about concrete cameras: with a pixel that reads -1400 counts or less, or -3000.
-/
set_option linter.unusedSectionVars false
set_option autoImplicit false
namespace Mlx.Props
open Mlx Mlx.Spec Mlx.Proofs F32Ops

/-- A raw value of pixel 367 from -4096 to -1400 means a signal colder than absolute zero. -/
theorem cold_frozen (r : Word) (h : -4096 ≤ r.toInt ∧ r.toInt ≤ -1400) :
    (Mlx90640Memory.pixel (noisyMemory r) 1 none .zero 367).UsuallyFrozen := by
  obtain ⟨hu, hs, -, hg, hm, -⟩ := scene_usual_well
  have hraw : noisyMemory r (BitVec.ofNat 16 (0x0400 + 367)) = r := by
    unfold noisyMemory setWord
    rw [if_pos (by decide)]
  have h512 : (Mlx90640Memory.pixel sceneMemory 1 none .zero 367).raw = 512 := by rw [scene_pixel]
  have hem : (Mlx90640Memory.pixel sceneMemory 1 none .zero 367).emissivity = 1 := rfl
  rw [differ_pixel_640 (noisy_differs r) 1 none .zero (by decide), hraw]
  generalize Mlx90640Memory.pixel sceneMemory 1 none .zero 367 = p at hu hs hg hm h512 hem
  have hr : (-4096 : ℝ) ≤ r.toInt ∧ (r.toInt : ℝ) ≤ -1400 := by exact_mod_cast h
  refine ⟨{ hu.toUsualScene with pixel := ⟨?_, hu.pixel.reference, hu.pixel.supply, hu.pixel.ambient, hu.pixel.correction⟩ }, ?_⟩
  · show |(r.toInt : ℝ)| ≤ 4096
    rw [abs_le]
    exact ⟨hr.1, by linarith [hr.2]⟩
  · have hs2 : ({ p with raw := r.toInt } : PixelInputs).signal = p.signal + p.table.gain / p.readings.gain * (r.toInt - 512) := by
      unfold PixelInputs.signal pixelSignal Datasheet.compensatedSignal Datasheet.signal
      rw [hem, h512]
      push_cast
      ring
    show ({ p with raw := r.toInt } : PixelInputs).signal ≤ -1.01 * (p.sensitivity * p.radiation)
    rw [hs2]
    have e1 := le_abs_self p.signal
    have e2 : p.table.gain / p.readings.gain * ((r.toInt : ℝ) - 512) ≤ 0.92 * (-1912) := by
      have : p.table.gain / p.readings.gain * (1912 : ℝ) ≤ p.table.gain / p.readings.gain * (512 - r.toInt) :=
        mul_le_mul_of_nonneg_left (by linarith [hr.2]) (by linarith)
      linarith
    linarith

/-- Everything that `C113_camera_640` assumes holds for pixel 367 of such a camera, read with correctly rounded operations in a release build:
it shows NaN. -/
example (r : Word) (h : -4096 ≤ r.toInt ∧ r.toInt ≤ -1400) (dest : List Rounded) (hdest : dest.length = 768) :
    ∃ s' d d' dest' v, Driver.new640 .wrapping (recorded (cameraBus 0x33#8)) (noisyMemory r, []) 0x33#8 = (s', .ok d) ∧
      Driver.generateImageSubpageTo (recordedEnv ⟨.wrapping, 24, cameraBus 0x33#8⟩) .zero dest d = (d', dest', .ok ()) ∧
      dest'[367]? = some v ∧ IsNaN v := by
  obtain ⟨s', d, d', dest', hd, hg, -, hem, hrefl⟩ := imaged_640 (F := Rounded) (noisyMemory r) .zero dest
  have hst2 : StaticMemory (recorded (cameraBus 0x33#8)) 0x33#8 Prod.fst := static_recorded (cameraBus_static 0x33#8)
  obtain ⟨hmem, -⟩ := new_static hst2 hd
  have hmem : d.bus.1 = noisyMemory r := hmem
  have hreg : Ee640.Regular (eepromOf (noisyMemory r)) := SameEeprom.regular (E := eepromOf (exampleMemory words640))
    (fun a h1 h2 => (scene_same a h1 h2).trans (differ_eeprom le_rfl (noisy_differs r) a h1 h2).symm) example640_regular
  have hm : Mlx90640Memory.measured (noisyMemory r) .zero 367 := by
    have := scene640.1
    unfold Mlx90640Memory.measured at this ⊢
    rw [noisy_differs r 0x800D#16 (by decide)]
    exact this
  obtain ⟨v, v1, v2⟩ := (C113_camera_640 .wrapping _ (noisyMemory r, []) s' _ hst2 d hd hreg [] d .start (fun c hc => nomatch hc)
    rounded_powers 1 none dest dest' d' 367 (by omega)
    (by rw [hem]; exact is_lit (by norm_num) (by simpa using value_int (m := 1) (by norm_num))) (by rw [hrefl]; exact .none)).1 .zero hg
    (by rw [hmem]; exact hm) (by rw [hmem]; exact C113_usual (cold_frozen r h) (by norm_num) (by norm_num))
  exact ⟨s', d, d', dest', v, hd, hg, v1, v2⟩

/-- A raw value of pixel 100 of the MLX90641 from -4096 to -3000 means a signal colder than absolute zero. -/
theorem cold_frozen641 (r : Word) (h : -4096 ≤ r.toInt ∧ r.toInt ≤ -3000) :
    (Mlx90641Memory.pixel (noisyMemory641 r) values641 (243 / 256) none .zero 100).UsuallyFrozen := by
  have hp := differ_pixel_641 (noisy641_differs r) values641 (243 / 256) none .zero 100
  have hraw : (noisyMemory641 r (Mlx90641Memory.address .zero 100)).toInt = r.toInt := noisy641_raw r
  rw [hraw] at hp
  rw [hp]
  obtain ⟨hu, -, -, ⟨hg, hs, hm, -⟩, -⟩ := usual641
  have h512 : (Mlx90641Memory.pixel memory641 values641 (243 / 256) none .zero 100).raw = -100 ∧
      (Mlx90641Memory.pixel memory641 values641 (243 / 256) none .zero 100).emissivity = 243 / 256 := by
    rw [scene641_pixel]; exact ⟨rfl, rfl⟩
  generalize Mlx90641Memory.pixel memory641 values641 (243 / 256) none .zero 100 = p at hu hs hg hm h512 ⊢
  obtain ⟨h512, hem⟩ := h512
  have hr : (-4096 : ℝ) ≤ r.toInt ∧ (r.toInt : ℝ) ≤ -3000 := by exact_mod_cast h
  refine ⟨{ hu.toUsualScene with pixel := ⟨?_, hu.pixel.reference, hu.pixel.supply, hu.pixel.ambient, hu.pixel.correction⟩ }, ?_⟩
  · show |(r.toInt : ℝ)| ≤ 4096
    rw [abs_le]
    exact ⟨hr.1, by linarith [hr.2]⟩
  · have hs2 : ({ p with raw := r.toInt } : PixelInputs).signal = p.signal + p.table.gain / p.readings.gain * (r.toInt + 100) / (243 / 256) := by
      have := signal_difference (p := p) (q := { p with raw := r.toInt }) rfl rfl
      generalize ({ p with raw := r.toInt } : PixelInputs).signal = S at this ⊢
      dsimp only at this
      rw [h512, hem] at this
      push_cast at this
      linear_combination -this
    show ({ p with raw := r.toInt } : PixelInputs).signal ≤ -1.01 * (p.sensitivity * p.radiation)
    rw [hs2]
    have e2 : p.table.gain / p.readings.gain * (2900 : ℝ) ≤ p.table.gain / p.readings.gain * (-(r.toInt + 100)) :=
      mul_le_mul_of_nonneg_left (by linarith [hr.2]) (by linarith)
    generalize p.table.gain / p.readings.gain = g at *
    have e3 : g * ((r.toInt : ℝ) + 100) / (243 / 256) = (g * (r.toInt + 100)) * (256 / 243) := by ring
    rw [e3]
    linarith

/-- So does what `C113_camera_641` assumes for pixel 100 of such a camera. -/
example (r : Word) (h : -4096 ≤ r.toInt ∧ r.toInt ≤ -3000) (dest : List Rounded) (hdest : dest.length = 192) :
    ∃ s' d d' dest' v, Driver.new641 .wrapping (recorded (cameraBus 0x33#8)) (noisyMemory641 r, []) 0x33#8 = (s', .ok d) ∧
      Driver.generateImageSubpageTo (recordedEnv ⟨.wrapping, 12, cameraBus 0x33#8⟩) .zero dest d = (d', dest', .ok ()) ∧
      dest'[100]? = some v ∧ IsNaN v := by
  obtain ⟨s', d, hd, ⟨hem, -⟩, hrefl, ⟨d', dest', hg, -⟩, -⟩ := imaged_641 (F := Rounded) (noisyMemory641 r) (noisy641_holds r) .zero dest
  have hst2 : StaticMemory (recorded (cameraBus 0x33#8)) 0x33#8 Prod.fst := static_recorded (cameraBus_static 0x33#8)
  obtain ⟨hmem, -⟩ := new_static hst2 hd
  have hmem : d.bus.1 = noisyMemory641 r := hmem
  obtain ⟨v, v1, v2⟩ := (C113_camera_641 .wrapping _ (noisyMemory641 r, []) s' _ hst2 d hd values641 example641_regular (noisy641_holds r)
    moderate641 [] d .start (fun c hc => nomatch hc)
    rounded_powers (243 / 256) none dest dest' d' 100 (by omega) (by omega) hem (by rw [hrefl]; exact .none)).1 .zero hg
    (by rw [hmem]; exact C113_usual (cold_frozen641 r h) (by norm_num) (by norm_num))
  exact ⟨s', d, d', dest', v, hd, hg, v1, v2⟩

end Mlx.Props
