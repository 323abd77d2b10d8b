import Verif.Props.Scene641
import Verif.Props.Difference
/-
The theorems about the accuracy of the MLX90641 (C75, C94, C97, C100, C101, C103, C104) say something about a concrete camera: the
one of `memory641`, read with correctly rounded operations in a release build.
-/
set_option linter.unusedSectionVars false
set_option autoImplicit false
namespace Mlx.Props
open Mlx Mlx.Spec Mlx.Proofs F32Ops

section
variable {F : Type} [F32Ops F] [Binary32 F] {σ ER EW : Type} {mem : σ → Word → Word}

/-- The emissivity that a driver of a camera with the EEPROM of the example uses. -/
def used641 (F : Type) [F32Ops F] : F := (decode641 (F := F) (Ee641.widen values641)).toCalib.emissivity.getD (lit 1)

/-- A driver of a camera with the EEPROM of the example uses the emissivity of the example. -/
theorem emissivity641 {m : Mode} {b : Bus σ ER EW} {s s' : σ} {addr : Byte} {d : Driver F σ} (h : StaticMemory b addr mem)
    (hd : Driver.new641 m b s addr = (s', .ok d))
    (hD : ∀ a ∈ Ee641.readAddresses 192, WithinOneBit (eepromOf (mem s) a) (codeword (values641 a))) :
    Is d.effectiveEmissivity (243 / 256) ∧ d.effectiveEmissivity = used641 F := by
  obtain ⟨-, c, hc, hcal⟩ := new_static h hd
  have hholds : Ee641.Holds (memBytes (mem s) 0x2400#16 1664) values641 (Ee641.readAddresses 192) := by
    intro a ha
    have hb := readAddresses_bounds ha
    rw [eepromWord_memBytes _ (by omega) hb.2.1]
    exact hD a ha
  have he := (C69_exact_641 m _ c hc values641 hholds example641_regular moderate641).1.emissivity
  rw [(parameters641 _ rfl).2.1.2.2.2.2] at he
  refine ⟨?_, by rw [(new_fresh hd).1, hcal, (decode_of_accepted hc hholds).2]; rfl⟩
  rw [(new_fresh hd).1, hcal]
  revert he
  generalize c.toCalib.emissivity = o
  intro he
  cases he with
  | some h => exact h

/-- In a release build, an image can be made of a healthy MLX90641 with the EEPROM of the example. -/
theorem imaged_641_plain (M : Word → Word)
    (hD : ∀ a ∈ Ee641.readAddresses 192, WithinOneBit (eepromOf M a) (codeword (values641 a))) (sp : Subpage) (dest : List F) :
    ∃ s' d d' dest', Driver.new641 .wrapping (cameraBus 0x33#8) M 0x33#8 = (s', .ok d) ∧
      Driver.generateImageSubpageTo ⟨.wrapping, 12, cameraBus 0x33#8⟩ sp dest d = (d', dest', .ok ()) ∧
      d.bus = M ∧ Is d.effectiveEmissivity (243 / 256) ∧ d.reflectedTemperature = none := by
  have hst := cameraBus_static 0x33#8
  obtain ⟨s', d, hd⟩ := ((C68_construction (F := F) .wrapping _ M _ hst).2 (cameraBus_serves _ _)).2 ⟨values641, hD, Or.inl rfl⟩
  have hok := (C68_healthy_camera_works .wrapping _ _ s' _ d 12 (Or.inr ⟨rfl, hd⟩) hst (cameraBus_serves _ _) (Or.inl rfl) [] d
    .start).2 (.generateImageSubpageTo sp dest)
  have hok : (discardImage (Driver.generateImageSubpageTo ⟨.wrapping, 12, cameraBus 0x33#8⟩ sp dest d)).2 = .ok () := hok
  obtain ⟨d', dest', hg⟩ : ∃ d' dest', Driver.generateImageSubpageTo ⟨.wrapping, 12, cameraBus 0x33#8⟩ sp dest d =
      (d', dest', .ok ()) := by
    revert hok
    generalize Driver.generateImageSubpageTo ⟨.wrapping, 12, cameraBus 0x33#8⟩ sp dest d = q
    intro hok
    obtain ⟨d', dest', r⟩ := q
    unfold discardImage discard at hok
    cases r with
    | ok u => exact ⟨d', dest', rfl⟩
    | err e => cases hok
    | panic => cases hok
  exact ⟨s', d, d', dest', hd, hg, (new_static hst hd).1, (emissivity641 hst hd hD).1, (new_fresh hd).2⟩

/-- Images of both kinds can be made of a recorded healthy MLX90641 with the EEPROM of the example, whose memory is as heard. -/
theorem imaged_641 (M : Word → Word)
    (hD : ∀ a ∈ Ee641.readAddresses 192, WithinOneBit (eepromOf M a) (codeword (values641 a))) (sp : Subpage) (dest : List F) :
    ∃ s' d, Driver.new641 .wrapping (recorded (cameraBus 0x33#8)) (M, []) 0x33#8 = (s', .ok d) ∧
      (Is d.effectiveEmissivity (243 / 256) ∧ d.effectiveEmissivity = used641 F) ∧ d.reflectedTemperature = none ∧
      (∃ d' dest', Driver.generateImageSubpageTo (recordedEnv ⟨.wrapping, 12, cameraBus 0x33#8⟩) sp dest d = (d', dest', .ok ()) ∧
        AsHeard 0x33#8 d'.bus.2 M) ∧
      (∃ d' dest', Driver.generateRawImageSubpageTo (recordedEnv ⟨.wrapping, 12, cameraBus 0x33#8⟩) sp dest d = (d', dest', .ok ()) ∧
        AsHeard 0x33#8 d'.bus.2 M) := by
  have hst := cameraBus_static 0x33#8
  have hst2 : StaticMemory (recorded (cameraBus 0x33#8)) 0x33#8 Prod.fst := static_recorded hst
  have hv := fun cam => cameraBus_serves cam 0x33#8
  have hv2 : ∀ cam, Serves (recorded (cameraBus 0x33#8)) cam 0x33#8 Prod.fst := fun cam =>
    ⟨fun s => (hv cam).read s.1, fun s => (hv cam).write s.1, fun s => (hv cam).eeprom s.1⟩
  obtain ⟨s', d, hd⟩ := ((C68_construction (F := F) .wrapping _ (M, []) _ hst2).2 (hv2 _)).2 ⟨values641, hD, Or.inl rfl⟩
  obtain ⟨hmem, -⟩ := new_static hst2 hd
  let env : Env ((Word → Word) × List (Txn Unit Unit)) Unit Unit := recordedEnv ⟨.wrapping, 12, cameraBus 0x33#8⟩
  have hok := (C68_healthy_camera_works .wrapping (recorded (cameraBus 0x33#8)) _ s' _ d 12 (Or.inr ⟨rfl, hd⟩) hst2 (hv2 _) (Or.inl rfl) [] d
    .start).2
  have heard := fun op => C99_healthy_camera .wrapping (cameraBus 0x33#8) (M, []) s' 0x33#8 d 12 id (Or.inr ⟨rfl, hd⟩) hst (hv _)
    (fun a w h => nomatch h) [op]
  obtain ⟨hs, ha⟩ := (C39_constructed_drivers_supported .wrapping (recorded (cameraBus 0x33#8)) _ 0x33#8).2 s' d hd
  have made : ∀ q : Driver F ((Word → Word) × List (Txn Unit Unit)) × List F × Res (Err Unit Unit) Unit,
      (discardImage q).2 = .ok () → AsHeard 0x33#8 (discardImage q).1.bus.2 (discardImage q).1.bus.1 → q.1.bus.1 = M →
      ∃ d' dest', q = (d', dest', .ok ()) ∧ AsHeard 0x33#8 d'.bus.2 M := by
    rintro ⟨d', dest', r⟩ h1 h2 rfl
    unfold discardImage discard at h1
    cases r with
    | ok u => exact ⟨d', dest', rfl, h2⟩
    | err e => cases h1
    | panic => cases h1
  refine ⟨s', d, hd, emissivity641 hst2 hd hD, (new_fresh hd).2, ?_, ?_⟩
  · refine made _ (hok (.generateImageSubpageTo sp dest)) (heard (.generateImageSubpageTo sp dest)) ?_
    rw [imageSubpage_eq]
    exact (static_image (env := env) (mem := Prod.fst) hs (by rw [ha]; exact hst2) _ _ _).trans hmem
  · refine made _ (hok (.generateRawImageSubpageTo sp dest)) (heard (.generateRawImageSubpageTo sp dest)) ?_
    rw [rawImageSubpage_eq]
    exact (static_image (env := env) (mem := Prod.fst) hs (by rw [ha]; exact hst2) _ _ _).trans hmem

end

/-- Everything that `C75_camera_641`, `C94_camera_641` and `C97_camera_641` assume holds for this camera, and pixel 100 is within 1.2 °C
of the object it looks at, which is between 40 and 60 °C. -/
example (dest : List Rounded) (hdest : dest.length = 192) :
    ∃ s' d d' dest' v To, Driver.new641 .wrapping (cameraBus 0x33#8) memory641 0x33#8 = (s', .ok d) ∧
      Driver.generateImageSubpageTo ⟨.wrapping, 12, cameraBus 0x33#8⟩ .zero dest d = (d', dest', .ok ()) ∧
      dest'[100]? = some v ∧ 40 ≤ To ∧ To ≤ 60 ∧ (Mlx90641Memory.pixel memory641 values641 (243 / 256) none .zero 100).Sees To ∧
      (Mlx90641Memory.pixel memory641 values641 (243 / 256) none .zero 100).Computable (1 / 2 ^ 24) ∧ Within v To 1.2 := by
  obtain ⟨s', d, d', dest', hd, hg, hb, hem, hrefl⟩ := imaged_641_plain (F := Rounded) memory641 memory641_holds .zero dest
  obtain ⟨hu, -, -, -, To, t1, t2, hsees⟩ := usual641
  obtain ⟨v, v1, -, v3⟩ := (C97_camera_641 .wrapping _ memory641 s' _ (cameraBus_static _) d hd values641 example641_regular
    memory641_holds moderate641 [] d .start (fun c hc => nomatch hc) rounded_powers (by norm_num) (243 / 256) none dest dest' d' 100
    (by omega) hem (by rw [hrefl]; exact .none)).1 .zero hg (by decide) (by
      show (Mlx90641Memory.pixel (id d.bus) values641 (243 / 256) none .zero 100).Usual
      rw [hb]; exact hu)
  refine ⟨s', d, d', dest', v, To, hd, hg, v1, t1, t2, hsees, (usual_computable hu (by positivity) (by norm_num)).1, v3 To ?_⟩
  show (Mlx90641Memory.pixel (id d.bus) values641 (243 / 256) none .zero 100).Sees To
  rw [hb]; exact hsees

/-- The same for what was heard from it: everything that `C100_camera_641` and `C100_usual_641` assume holds. -/
example (dest : List Rounded) (hdest : dest.length = 192) :
    ∃ s' d d' dest' v To, Driver.new641 .wrapping (recorded (cameraBus 0x33#8)) (memory641, []) 0x33#8 = (s', .ok d) ∧
      Driver.generateImageSubpageTo (recordedEnv ⟨.wrapping, 12, cameraBus 0x33#8⟩) .zero dest d = (d', dest', .ok ()) ∧
      AsHeard 0x33#8 d'.bus.2 memory641 ∧
      dest'[100]? = some v ∧ (Mlx90641Memory.pixel memory641 values641 (243 / 256) none .zero 100).Sees To ∧ Within v To 1.2 := by
  obtain ⟨s', d, hd, ⟨hem, -⟩, hrefl, ⟨d', dest', hg, heard⟩, -⟩ := imaged_641 (F := Rounded) memory641 memory641_holds .zero dest
  obtain ⟨hu, -, -, -, To, -, -, hsees⟩ := usual641
  obtain ⟨v, v1, -, v3⟩ := (C100_usual_641 .wrapping (cameraBus 0x33#8) (memory641, []) s' 0x33#8 d hd [] dest dest' d' memory641 heard
    values641 example641_regular memory641_holds moderate641 rounded_powers (by norm_num) (243 / 256) none 100 (by omega) hem
    (by rw [show (runOps (recordedEnv ⟨.wrapping, 12, cameraBus 0x33#8⟩) [] d).reflectedTemperature = none from hrefl]; exact .none)).1
    .zero hg (by decide) hu
  exact ⟨s', d, d', dest', v, To, hd, hg, heard, v1, hsees, v3 To hsees⟩

/-- This memory, with another raw value of pixel 100. -/
def noisyMemory641 (r : Word) : Word → Word := setWord memory641 0x04C4#16 r

theorem noisy641_differs (r : Word) : DifferInPixels 0x0580 memory641 (noisyMemory641 r) := by
  intro a ha
  unfold noisyMemory641 setWord
  rw [if_neg]
  rintro rfl
  exact ha (by decide)

theorem noisy641_holds (r : Word) :
    ∀ a ∈ Ee641.readAddresses 192, WithinOneBit (eepromOf (noisyMemory641 r) a) (codeword (values641 a)) := by
  intro a ha
  obtain ⟨b1, b2, _⟩ := readAddresses_bounds ha
  rw [differ_eeprom (by decide) (noisy641_differs r) a (by omega) b2]
  exact memory641_holds a ha

theorem noisy641_raw (r : Word) : (Mlx90641Memory.pixel (noisyMemory641 r) values641 (243 / 256) none .zero 100).raw = r.toInt := by
  show (noisyMemory641 r (Mlx90641Memory.address .zero 100)).toInt = _
  unfold noisyMemory641 setWord
  rw [if_pos (by decide)]

/-- A raw value that differs by up to 30 counts is a usual measurement as well. -/
theorem noisy641_usual (r : Word) (h : |r.toInt + 100| ≤ 30) :
    (Mlx90641Memory.pixel (noisyMemory641 r) values641 (243 / 256) none .zero 100).Usual := by
  have hp := differ_pixel_641 (noisy641_differs r) values641 (243 / 256) none .zero 100
  have hraw : (noisyMemory641 r (Mlx90641Memory.address .zero 100)).toInt = r.toInt := noisy641_raw r
  rw [hraw] at hp
  rw [hp]
  obtain ⟨hu, hs, hg, -⟩ := usual641
  have h512 : (Mlx90641Memory.pixel memory641 values641 (243 / 256) none .zero 100).raw = -100 ∧
      (Mlx90641Memory.pixel memory641 values641 (243 / 256) none .zero 100).emissivity = 243 / 256 := by
    rw [scene641_pixel]; exact ⟨rfl, rfl⟩
  generalize Mlx90641Memory.pixel memory641 values641 (243 / 256) none .zero 100 = p at hu hs hg h512 ⊢
  obtain ⟨h512, hem⟩ := h512
  have hr : |((r.toInt : Int) : ℝ) + 100| ≤ 30 := by exact_mod_cast h
  refine { hu with pixel := ⟨?_, hu.pixel.reference, hu.pixel.supply, hu.pixel.ambient, hu.pixel.correction⟩, contrast := ?_ }
  · show |((r.toInt : Int) : ℝ)| ≤ 4096
    have := abs_le.1 hr
    rw [abs_le]
    constructor <;> linarith
  · have hs2 : ({ p with raw := r.toInt } : PixelInputs).signal = p.signal + p.table.gain / p.readings.gain * (r.toInt + 100) / (243 / 256) := by
      have := signal_difference (p := p) (q := { p with raw := r.toInt }) rfl rfl
      generalize ({ p with raw := r.toInt } : PixelInputs).signal = S at this ⊢
      dsimp only at this
      rw [h512, hem] at this
      push_cast at this
      linear_combination -this
    show |({ p with raw := r.toInt } : PixelInputs).signal| ≤ p.sensitivity * p.radiation / 2
    rw [hs2]
    refine (abs_add_le _ _).trans (le_trans ?_ hs)
    have : |p.table.gain / p.readings.gain * (r.toInt + 100) / (243 / 256)| ≤ 1.45 * 30 / (243 / 256) := by
      rw [abs_div, abs_mul, abs_of_pos (by norm_num : (0 : ℝ) < 243 / 256)]
      have := mul_le_mul hg hr (abs_nonneg _) (by norm_num)
      gcongr
    refine add_le_add le_rfl (this.trans ?_)
    norm_num

theorem used641_is : Is (used641 Rounded) (243 / 256) := by
  obtain ⟨s', d, hd, ⟨h1, h2⟩, -⟩ := imaged_641 (F := Rounded) memory641 memory641_holds .zero []
  rw [← h2]; exact h1

theorem made_641 (M : Word → Word)
    (hD : ∀ a ∈ Ee641.readAddresses 192, WithinOneBit (eepromOf M a) (codeword (values641 a))) (dest : List Rounded) :
    (∃ dest' tA, Taken Driver.new641 12 .thermal M (used641 Rounded) none .zero dest dest' tA) ∧
    (∃ dest' tA, Taken Driver.new641 12 .raw M (used641 Rounded) none .zero dest dest' tA) ∧
    ∃ dest', Imaged Driver.new641 12 M (used641 Rounded) none .zero dest dest' := by
  obtain ⟨s', d, hd, ⟨-, hem⟩, hrefl, ⟨d', dest', hg, heard⟩, ⟨d2, dest2, hg2, heard2⟩⟩ := imaged_641 (F := Rounded) M hD .zero dest
  exact ⟨⟨dest', _, _, _, _, _, _, _, _, _, d, d, d', [], hd, rfl, hem, hrefl, heard, rfl, Or.inl hg⟩,
    ⟨dest2, _, _, _, _, _, _, _, _, _, d, d, d2, [], hd, rfl, hem, hrefl, heard2, rfl, hg2⟩,
    ⟨dest', _, _, _, _, _, _, _, _, d, d, d', [], hd, rfl, hem, hrefl, heard, Or.inl hg⟩⟩

/-- Everything that `C101_rounded_641` assumes holds for these two memories. -/
example (r : Word) (h : |r.toInt + 100| ≤ 30) (dest : List Rounded) (hdest : dest.length = 192) :
    ∃ dest' old', Imaged Driver.new641 12 memory641 (used641 Rounded) none .zero dest dest' ∧
      Imaged Driver.new641 12 (noisyMemory641 r) (used641 Rounded) none .zero dest old' ∧
      ∃ v w y z, dest'[100]? = some v ∧ old'[100]? = some w ∧ Is v y ∧ Is w z ∧
        |y - z| ≤ 1.2 + 0.8 * |((-100 - r.toInt : Int) : ℝ)| := by
  obtain ⟨-, -, dest', h1⟩ := made_641 memory641 memory641_holds dest
  obtain ⟨-, -, old', h2⟩ := made_641 (noisyMemory641 r) (noisy641_holds r) dest
  refine ⟨dest', old', h1, h2, ?_⟩
  obtain ⟨hu, _, hg, _⟩ := usual641
  obtain ⟨v, w, y, z, v1, w1, y1, z1, yz⟩ := C101_rounded_641 h1 h2 values641 example641_regular memory641_holds moderate641 rounded_powers
    (by norm_num) used641_is .none (noisy641_differs r) 100 (by decide) (by omega) hu (noisy641_usual r h)
  refine ⟨v, w, y, z, v1, w1, y1, z1, yz.trans (add_le_add le_rfl ?_)⟩
  have hraw0 : (Mlx90641Memory.pixel memory641 values641 (243 / 256) none .zero 100).raw = -100 := by rw [scene641_pixel]
  rw [hraw0, noisy641_raw]
  generalize Mlx90641Memory.pixel memory641 values641 (243 / 256) none .zero 100 = p at hu hg ⊢
  have hα := hu.sensitivity.1
  have hα0 : 0 < p.sensitivity := lt_of_lt_of_le (by norm_num) hα
  rw [mul_div_assoc', div_le_iff₀ (by positivity)]
  have hd := abs_nonneg ((-100 - r.toInt : Int) : ℝ)
  generalize |((-100 - r.toInt : Int) : ℝ)| = D at *
  generalize |p.table.gain / p.readings.gain| = g at *
  have e1 : 5 / 10 ^ 8 * (g * D) ≤ 5 / 10 ^ 8 * (1.45 * D) := by gcongr
  have e2 : 0.8 * D * (243 / 256 * (1 / 10 ^ 7)) ≤ 0.8 * D * (243 / 256 * p.sensitivity) := by gcongr
  refine e1.trans (le_trans ?_ e2)
  norm_num
  linarith

/-- Everything that `C104_rounded_641` assumes holds for raw images of these two memories. -/
example (r : Word) (h : |r.toInt + 100| ≤ 30) (dest : List Rounded) (hdest : dest.length = 192) :
    ∃ dest' old' tA tA', Taken Driver.new641 12 .raw memory641 (used641 Rounded) none .zero dest dest' tA ∧
      Taken Driver.new641 12 .raw (noisyMemory641 r) (used641 Rounded) none .zero dest old' tA' ∧
      ∃ v w y z, dest'[100]? = some v ∧ old'[100]? = some w ∧ Is v y ∧ Is w z ∧
        |y - z - rawDifference (Ee641.calibration values641) layout641 (Mlx90641Memory.address .zero 100) .zero memory641
            (noisyMemory641 r) / (243 / 256)| ≤
          (Mlx90641Memory.pixel memory641 values641 (243 / 256) none .zero 100).signalError +
          (Mlx90641Memory.pixel (noisyMemory641 r) values641 (243 / 256) none .zero 100).signalError := by
  obtain ⟨-, ⟨dest', tA, h1⟩, -⟩ := made_641 memory641 memory641_holds dest
  obtain ⟨-, ⟨old', tA', h2⟩, -⟩ := made_641 (noisyMemory641 r) (noisy641_holds r) dest
  refine ⟨dest', old', tA, tA', h1, h2, ?_⟩
  have hn := noisy641_differs r
  have hsame : SameReadings layout641 memory641 (noisyMemory641 r) :=
    ⟨⟨fun a h1 _ => hn a (by omega), hn _ (by decide), hn _ (by decide)⟩, hn _ (by decide), hn _ (by decide), hn _ (by decide)⟩
  have ev : ∀ p : PixelInputs, p.Usual → p.Evaluable := fun p hu => (usual_computable hu (δ := 0) le_rfl (by norm_num)).1.1
  exact C104_rounded_641 h1 h2 values641 example641_regular memory641_holds moderate641 rounded_powers (by norm_num) used641_is .none .none
    hsame 100 (by omega) (by decide) (ev _ usual641.1) (ev _ (noisy641_usual r h))

/-- This memory, where the other pixels read 0; and everything that is amplified is `k` times as large. -/
def amplifiedMemory641 (k : Nat) (a : Word) : Word :=
  if 0x0400 ≤ a.toNat ∧ a.toNat < 0x0580 then (if a = 0x04C4#16 then BitVec.ofInt 16 (-100 * k) else 0#16)
  else if a = 0x0588#16 then BitVec.ofInt 16 (-54 * k)
  else if a = 0x058A#16 then BitVec.ofNat 16 (6881 * k)
  else memory641 a

theorem amplified641_differs : DifferInPixels 0x0580 memory641 (amplifiedMemory641 1) := by
  intro a ha
  unfold amplifiedMemory641
  rw [if_neg ha]
  by_cases h1 : a = 0x0588#16
  · subst h1; decide +kernel
  · rw [if_neg h1]
    by_cases h2 : a = 0x058A#16
    · subst h2; decide +kernel
    · rw [if_neg h2]

theorem amplified641_drifted : Drifted layout641 .zero (amplifiedMemory641 1) (amplifiedMemory641 2) := by
  refine ⟨⟨fun a h1 h2 => ?_, by decide +kernel, by decide +kernel⟩, fun a h1 h2 => ?_, by unfold SameRatio; decide +kernel, by decide +kernel,
    by unfold SameRatio; decide +kernel, by decide +kernel⟩
  · unfold amplifiedMemory641
    have e1 : ¬ (0x0400 ≤ a.toNat ∧ a.toNat < 0x0580) := by omega
    have e2 : a ≠ 0x0588#16 := by rintro rfl; exact absurd h1 (by decide)
    have e3 : a ≠ 0x058A#16 := by rintro rfl; exact absurd h1 (by decide)
    rw [if_neg e1, if_neg e1, if_neg e2, if_neg e2, if_neg e3, if_neg e3]
  · have h2 : a.toNat < 0x0580 := h2
    have g1 : amplifiedMemory641 1 layout641.gain = 6881#16 := by decide +kernel
    have g2 : amplifiedMemory641 2 layout641.gain = 13762#16 := by decide +kernel
    unfold SameRatio
    rw [g1, g2]
    unfold amplifiedMemory641
    have h12 : 0x0400 ≤ a.toNat ∧ a.toNat < 0x0580 := ⟨h1, h2⟩
    rw [if_pos h12, if_pos h12]
    by_cases e : a = 0x04C4#16
    · rw [if_pos e, if_pos e]; decide +kernel
    · rw [if_neg e, if_neg e]; rfl

theorem amplified641_holds (k : Nat) (hk : k = 1 ∨ k = 2) :
    ∀ a ∈ Ee641.readAddresses 192, WithinOneBit (eepromOf (amplifiedMemory641 k) a) (codeword (values641 a)) := by
  have h1 : ∀ a ∈ Ee641.readAddresses 192, WithinOneBit (eepromOf (amplifiedMemory641 1) a) (codeword (values641 a)) := by
    intro a ha
    obtain ⟨b1, b2, _⟩ := readAddresses_bounds ha
    rw [differ_eeprom (by decide) amplified641_differs a (by omega) b2]
    exact memory641_holds a ha
  rcases hk with rfl | rfl
  · exact h1
  · intro a ha
    obtain ⟨b1, b2, _⟩ := readAddresses_bounds ha
    rw [SameCamera.sameEeprom amplified641_drifted.toSameCamera a (by omega) b2]
    exact h1 a ha

theorem amplified641_usual_1 : (Mlx90641Memory.pixel (amplifiedMemory641 1) values641 (243 / 256) none .zero 100).Usual := by
  have h := differ_pixel_641 amplified641_differs values641 (243 / 256) none .zero 100
  have hr : (amplifiedMemory641 1 (Mlx90641Memory.address .zero 100)).toInt =
      (Mlx90641Memory.pixel memory641 values641 (243 / 256) none .zero 100).raw := by
    rw [scene641_pixel]
    decide +kernel
  rw [h, hr]
  exact usual641.1

theorem amplified641_readings (k : Nat) (hk : k = 1 ∨ k = 2) : Mlx90641Memory.readings (amplifiedMemory641 k) .zero =
    { tAVbe := 19442, tAPtat := 1711, vddPixel := -13115, gain := 6881 * k, compensationPixel := -54 * k } := by
  rcases hk with rfl | rfl <;> decide +kernel

theorem amplified641_usual_2 : (Mlx90641Memory.pixel (amplifiedMemory641 2) values641 (243 / 256) none .zero 100).Usual := by
  have h := drifted_641 amplified641_drifted values641 (243 / 256) none (i := 100) (by decide)
  have hu := amplified641_usual_1
  have r1 : (Mlx90641Memory.pixel (amplifiedMemory641 1) values641 (243 / 256) none .zero 100).readings = _ := amplified641_readings 1 (Or.inl rfl)
  have r2 : (Mlx90641Memory.pixel (amplifiedMemory641 2) values641 (243 / 256) none .zero 100).readings = _ := amplified641_readings 2 (Or.inr rfl)
  have hraw : (Mlx90641Memory.pixel (amplifiedMemory641 2) values641 (243 / 256) none .zero 100).raw = -200 := by
    show (amplifiedMemory641 2 (Mlx90641Memory.address .zero 100)).toInt = -200
    decide +kernel
  have hg := hu.gain.2.2
  generalize Mlx90641Memory.pixel (amplifiedMemory641 1) values641 (243 / 256) none .zero 100 = p at *
  generalize Mlx90641Memory.pixel (amplifiedMemory641 2) values641 (243 / 256) none .zero 100 = q at *
  refine drifted_usual h hu (by rw [r1, r2]) (by rw [r1, r2]) ⟨?_, ?_⟩ ⟨?_, ?_⟩
  · rw [r2]; decide
  · rw [r1] at hg
    rw [r2]
    push_cast at hg ⊢
    rw [abs_div] at hg ⊢
    rw [div_le_iff₀ (by norm_num)] at hg ⊢
    norm_num at hg ⊢
    linarith
  · rw [hraw]; norm_num
  · rw [r2]; norm_num

/-- Everything that `C103_rounded_641` assumes holds for these two memories. -/
example (dest : List Rounded) (hdest : dest.length = 192) :
    ∃ dest' old' tA tA', Taken Driver.new641 12 .thermal (amplifiedMemory641 1) (used641 Rounded) none .zero dest dest' tA ∧
      Taken Driver.new641 12 .thermal (amplifiedMemory641 2) (used641 Rounded) none .zero dest old' tA' ∧
      ∃ v w y z, dest'[100]? = some v ∧ old'[100]? = some w ∧ Is v y ∧ Is w z ∧ |y - z| ≤ 1.2 := by
  obtain ⟨⟨dest', tA, h1⟩, -⟩ := made_641 _ (amplified641_holds 1 (Or.inl rfl)) dest
  obtain ⟨⟨old', tA', h2⟩, -⟩ := made_641 _ (amplified641_holds 2 (Or.inr rfl)) dest
  refine ⟨dest', old', tA, tA', h1, h2, ?_⟩
  obtain ⟨-, key⟩ := C103_rounded_641 h1 h2 values641 example641_regular (amplified641_holds 1 (Or.inl rfl)) moderate641 rounded_powers
    (by norm_num) used641_is .none amplified641_drifted
  obtain ⟨v, w, y, z, v1, w1, y1, z1, yz⟩ := key 100 (by omega) (by omega) (by decide) amplified641_usual_1 amplified641_usual_2
  refine ⟨v, w, y, z, v1, w1, y1, z1, yz.trans ?_⟩
  show (0.6 : ℝ) + 0.6 ≤ 1.2
  norm_num

end Mlx.Props
