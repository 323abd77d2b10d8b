import Verif.Props.Brighter
import Verif.Props.Scene
/-
C118: what the settings do to images of the same frame, end to end.
-/
set_option linter.unusedSectionVars false
set_option autoImplicit false
namespace Mlx.Props
open Mlx Mlx.Spec Mlx.Proofs F32Ops

/-! ### The documented values -/

theorem usual_ordinary {p : PixelInputs} (h : p.Usual) : Ordinary p.signal p.sensitivity p.radiation p.kSTo := by
  have hα : 0 < p.sensitivity := lt_of_lt_of_le (by norm_num) h.sensitivity.1
  have hr1 := h.radiation.1
  have hr2 := h.radiation.2
  refine ⟨hα, ⟨le_trans (by norm_num) hr1, hr2.trans (by norm_num)⟩, h.kSTo, ?_⟩
  have : |p.signal / p.sensitivity| ≤ p.radiation / 2 := by
    rw [abs_div, abs_of_pos hα, div_le_iff₀ hα]
    linarith [h.contrast]
  have := abs_le.1 this
  norm_num at hr1 hr2
  unfold Measured
  constructor <;> norm_num <;> linarith [this.1, this.2]

/-- A lower emissivity raises the documented temperature of a usual pixel with a positive signal. -/
theorem emissivity_raises {p : PixelInputs} {em' : ℝ} (h : p.Usual) (h' : ({ p with emissivity := em' } : PixelInputs).Usual)
    (hlt : em' < p.emissivity) (hs : 0 < p.signal) (ht : p.surroundings ≤ p.ambient) :
    p.temperature < ({ p with emissivity := em' } : PixelInputs).temperature := by
  have he : 0 < em' := lt_of_lt_of_le (by norm_num) h'.emissivity.1
  have hx : 0 ≤ p.surroundings + 273.15 := by have := h.surroundings.1; linarith
  exact object_strictMono_both (usual_ordinary h) (usual_ordinary h') (signal_emissivity he hlt hs) (reflected_emissivity he hlt hx ht)

/-- Warmer surroundings lower it, for an emissivity below one. -/
theorem surroundings_lower {p : PixelInputs} {given' : Option ℝ} (h : p.Usual) (h' : ({ p with given := given' } : PixelInputs).Usual)
    (he : p.emissivity < 1) (ht : p.surroundings < ({ p with given := given' } : PixelInputs).surroundings) :
    ({ p with given := given' } : PixelInputs).temperature < p.temperature := by
  have he0 : 0 < p.emissivity := lt_of_lt_of_le (by norm_num) h.emissivity.1
  have hx : 0 ≤ p.surroundings + 273.15 := by have := h.surroundings.1; linarith
  exact object_strictMono_radiation (usual_ordinary h') (usual_ordinary h) (reflected_warmer he0 he hx ht)

/-! ### Images -/

/-- **C118 (raw images, MLX90640).** Two raw images, in exact arithmetic, of the same subpage of one frame as heard, made with any
settings, by any drivers on any buses and after any calls: the ambient temperatures are the same, and the values of a measured pixel are
inversely proportional to the emissivities (the reflected temperature does not matter). -/
theorem C118_raw_640 {V : Word → Word} {em em' : ℝ} {refl refl' : Option ℝ} {sp : Subpage} {dest dest' old old' : List ℝ} {tA uA : Option ℝ}
    (h1 : Taken Driver.new640 24 .raw V em refl sp dest dest' tA) (h2 : Taken Driver.new640 24 .raw V em' refl' sp old old' uA)
    (hreg : Ee640.Regular (eepromOf V)) (hv : Fits16 ((V 0x072A#16).toInt - (Ee640.calibration (eepromOf V)).vdd25))
    (he : em ≠ 0 ∧ em' ≠ 0) (i : Nat) (hm : Mlx90640Memory.measured V sp i) (hi : i < dest.length ∧ i < old.length) :
    tA = uA ∧ ∃ x y, dest'[i]? = some x ∧ old'[i]? = some y ∧ em * x = em' * y := by
  obtain ⟨t1, a1⟩ := taken_640 h1 hreg hv
  obtain ⟨t2, a2⟩ := taken_640 h2 hreg hv
  refine ⟨t1.trans t2.symm, _, _, (a1.2 i).1 hm hi.1, (a2.2 i).1 hm hi.2, ?_⟩
  show em * (Mlx90640Memory.pixel V em refl sp i).signal = em' * (Mlx90640Memory.pixel V em' refl' sp i).signal
  unfold PixelInputs.signal pixelSignal
  rw [compensatedSignal_emissivity _ _ (Mlx90640Memory.pixel V em refl sp i).emissivity,
    compensatedSignal_emissivity _ _ (Mlx90640Memory.pixel V em' refl' sp i).emissivity]
  exact (mul_div_cancel₀ _ he.1).trans (mul_div_cancel₀ _ he.2).symm

/-- **C118 (raw images, MLX90641).** The same for the MLX90641. -/
theorem C118_raw_641 {V : Word → Word} {em em' : ℝ} {refl refl' : Option ℝ} {sp : Subpage} {dest dest' old old' : List ℝ} {tA uA : Option ℝ}
    (h1 : Taken Driver.new641 12 .raw V em refl sp dest dest' tA) (h2 : Taken Driver.new641 12 .raw V em' refl' sp old old' uA)
    (D : Nat → BitVec 11) (hreg : Ee641.Regular D)
    (hD : ∀ a ∈ Ee641.readAddresses 192, WithinOneBit (eepromOf V a) (codeword (D a)))
    (hv : Fits16 ((V 0x05AA#16).toInt - (Ee641.calibration D).vdd25))
    (he : em ≠ 0 ∧ em' ≠ 0) (i : Nat) (hm : i < 192) (hi : i < dest.length ∧ i < old.length) :
    tA = uA ∧ ∃ x y, dest'[i]? = some x ∧ old'[i]? = some y ∧ em * x = em' * y := by
  obtain ⟨t1, a1⟩ := taken_641 h1 hreg hD hv
  obtain ⟨t2, a2⟩ := taken_641 h2 hreg hD hv
  refine ⟨t1.trans t2.symm, _, _, (a1.2 i).1 hm hi.1, (a2.2 i).1 hm hi.2, ?_⟩
  show em * (Mlx90641Memory.pixel V D em refl sp i).signal = em' * (Mlx90641Memory.pixel V D em' refl' sp i).signal
  unfold PixelInputs.signal pixelSignal
  rw [compensatedSignal_emissivity _ _ (Mlx90641Memory.pixel V D em refl sp i).emissivity,
    compensatedSignal_emissivity _ _ (Mlx90641Memory.pixel V D em' refl' sp i).emissivity]
  exact (mul_div_cancel₀ _ he.1).trans (mul_div_cancel₀ _ he.2).symm

/-- **C118 (temperatures, MLX90640).** Two thermal images, in exact arithmetic, of the same subpage of one frame as heard, made with any
settings, by any drivers on any buses and after any calls: the ambient temperatures are the same, and for a measured pixel whose
measurements are usual (C97) with the settings of either image:
a lower emissivity, with the same reflected temperature, gives a strictly higher temperature if the signal is positive and the
surroundings are not warmer than the sensor; and warmer surroundings, with the same emissivity, which is below one, give a strictly lower one. -/
theorem C118_temperatures_640 {V : Word → Word} {em em' : ℝ} {refl refl' : Option ℝ} {sp : Subpage} {dest dest' old old' : List ℝ}
    {tA uA : Option ℝ} (h1 : Taken Driver.new640 24 .thermal V em refl sp dest dest' tA)
    (h2 : Taken Driver.new640 24 .thermal V em' refl' sp old old' uA) (hreg : Ee640.Regular (eepromOf V))
    (i : Nat) (hm : Mlx90640Memory.measured V sp i) (hi : i < dest.length ∧ i < old.length) :
    let p := Mlx90640Memory.pixel V em refl sp i
    let q := Mlx90640Memory.pixel V em' refl' sp i
    p.Usual → q.Usual → tA = uA ∧ ∃ x y, dest'[i]? = some x ∧ old'[i]? = some y ∧
      (em' < em → refl = refl' → 0 < p.signal → p.surroundings ≤ p.ambient → x < y) ∧
      (em = em' → em < 1 → p.surroundings < q.surroundings → y < x) := by
  intro p q hp hq
  have hv : Fits16 ((V 0x072A#16).toInt - (Ee640.calibration (eepromOf V)).vdd25) := hp.plausible.vdd
  obtain ⟨t1, a1⟩ := taken_640 h1 hreg hv
  obtain ⟨t2, a2⟩ := taken_640 h2 hreg hv
  refine ⟨t1.trans t2.symm, _, _, (a1.2 i).1 hm hi.1, (a2.2 i).1 hm hi.2, ?_, ?_⟩
  · rintro hlt rfl hs ht
    exact emissivity_raises (p := p) (em' := em') hp hq hlt hs ht
  · rintro rfl he ht
    exact surroundings_lower (p := p) (given' := refl') hp hq he ht

/-- **C118 (temperatures, MLX90641).** The same for the MLX90641. -/
theorem C118_temperatures_641 {V : Word → Word} {em em' : ℝ} {refl refl' : Option ℝ} {sp : Subpage} {dest dest' old old' : List ℝ}
    {tA uA : Option ℝ} (h1 : Taken Driver.new641 12 .thermal V em refl sp dest dest' tA)
    (h2 : Taken Driver.new641 12 .thermal V em' refl' sp old old' uA) (D : Nat → BitVec 11) (hreg : Ee641.Regular D)
    (hD : ∀ a ∈ Ee641.readAddresses 192, WithinOneBit (eepromOf V a) (codeword (D a)))
    (i : Nat) (hm : i < 192) (hi : i < dest.length ∧ i < old.length) :
    let p := Mlx90641Memory.pixel V D em refl sp i
    let q := Mlx90641Memory.pixel V D em' refl' sp i
    p.Usual → q.Usual → tA = uA ∧ ∃ x y, dest'[i]? = some x ∧ old'[i]? = some y ∧
      (em' < em → refl = refl' → 0 < p.signal → p.surroundings ≤ p.ambient → x < y) ∧
      (em = em' → em < 1 → p.surroundings < q.surroundings → y < x) := by
  intro p q hp hq
  have hv : Fits16 ((V 0x05AA#16).toInt - (Ee641.calibration D).vdd25) := hp.plausible.vdd
  obtain ⟨t1, a1⟩ := taken_641 h1 hreg hD hv
  obtain ⟨t2, a2⟩ := taken_641 h2 hreg hD hv
  refine ⟨t1.trans t2.symm, _, _, (a1.2 i).1 hm hi.1, (a2.2 i).1 hm hi.2, ?_, ?_⟩
  · rintro hlt rfl hs ht
    exact emissivity_raises (p := p) (em' := em') hp hq hlt hs ht
  · rintro rfl he ht
    exact surroundings_lower (p := p) (given' := refl') hp hq he ht

/-! ### These claims say something about concrete cameras -/

/-- A usual measurement stays one with a twentieth less emissivity and surroundings that are not warmer, if the signal leaves room for it. -/
theorem usual_with {p : PixelInputs} {em' : ℝ} {g : Option ℝ} (hu : p.Usual) (he : em' = p.emissivity * (19 / 20)) (h8 : 0.8 ≤ em')
    (hs : |p.signal| * (20 / 19) ≤ p.sensitivity * p.radiation / 2) (hx : -10 ≤ ({ p with given := g } : PixelInputs).surroundings)
    (hxs : ({ p with given := g } : PixelInputs).surroundings ≤ p.surroundings) (hsa : p.surroundings ≤ p.ambient) :
    ({ p with emissivity := em', given := g } : PixelInputs).Usual := by
  have hα : 0 < p.sensitivity := lt_of_lt_of_le (by norm_num) hu.sensitivity.1
  have e0 : 0 < p.emissivity := lt_of_lt_of_le (by norm_num) hu.emissivity.1
  have hsig : ({ p with emissivity := em', given := g } : PixelInputs).signal = p.signal * (20 / 19) := by
    have a1 := compensatedSignal_emissivity p.table (correction p.table p.control) p.emissivity p.readings p.subpage (pattern p.control) p.raw
      p.offset p.kV p.kTa p.comp
    have a2 := compensatedSignal_emissivity p.table (correction p.table p.control) em' p.readings p.subpage (pattern p.control) p.raw
      p.offset p.kV p.kTa p.comp
    show Datasheet.compensatedSignal _ _ em' _ _ _ _ _ _ _ _ = Datasheet.compensatedSignal _ _ p.emissivity _ _ _ _ _ _ _ _ * (20 / 19)
    rw [a1, a2, he]
    have := e0.ne'
    field_simp
  obtain ⟨b1, b2⟩ : p.radiation ≤ ({ p with emissivity := em', given := g } : PixelInputs).radiation ∧
      ({ p with emissivity := em', given := g } : PixelInputs).radiation ≤ (126 + 273.15) ^ 4 := by
    show Datasheet.reflected p.ambient p.surroundings p.emissivity ≤ Datasheet.reflected p.ambient
        ({ p with given := g } : PixelInputs).surroundings em' ∧
      Datasheet.reflected p.ambient ({ p with given := g } : PixelInputs).surroundings em' ≤ _
    have hamb := hu.ambient
    have hem := hu.emissivity
    have hsur := hu.surroundings
    generalize ({ p with given := g } : PixelInputs).surroundings = x at hx hxs ⊢
    generalize p.surroundings = S at *
    generalize p.ambient = A at *
    have key := reflected_emissivity (A := A) (x := x) (em := p.emissivity) (em' := em') (by linarith) (by rw [he]; linarith) (by linarith)
      (by linarith)
    have hX : (0 : ℝ) ≤ (x + 273.15) ^ 4 := by positivity
    have hXS : (x + 273.15) ^ 4 ≤ (S + 273.15) ^ 4 := pow_le_pow_left₀ (by linarith) (by linarith) 4
    have hA0 : (0 : ℝ) ≤ (A + 273.15) ^ 4 := by positivity
    have hA : (A + 273.15) ^ 4 ≤ (50 + 273.15) ^ 4 := pow_le_pow_left₀ (by linarith) (by linarith) 4
    unfold Datasheet.reflected at key ⊢
    generalize (x + 273.15) ^ 4 = X at *
    generalize (S + 273.15) ^ 4 = S4 at *
    generalize (A + 273.15) ^ 4 = A4 at *
    constructor
    · refine le_trans ?_ key
      have e1 : (X - (X - A4) / p.emissivity) - (S4 - (S4 - A4) / p.emissivity) = (S4 - X) * (1 / p.emissivity - 1) := by ring
      have h1e : 1 ≤ 1 / p.emissivity := by rw [le_div_iff₀ e0]; linarith
      have := mul_nonneg (sub_nonneg.2 hXS) (sub_nonneg.2 h1e)
      linarith
    · have e' : 0 < em' := by linarith
      have h1e : 1 ≤ 1 / em' := by
        rw [le_div_iff₀ e']; rw [he]; linarith
      have h2e : 1 / em' ≤ 1 / 0.8 := by gcongr
      have e1 : X - (X - A4) / em' = A4 * (1 / em') - X * (1 / em' - 1) := by ring
      have e2 := mul_nonneg hX (sub_nonneg.2 h1e)
      have e3 : A4 * (1 / em') ≤ (50 + 273.15) ^ 4 * (1 / 0.8) := mul_le_mul hA h2e (by positivity) (by positivity)
      rw [e1]
      exact (by linarith : _ ≤ (50 + 273.15) ^ 4 * (1 / 0.8 : ℝ)).trans (by norm_num)
  refine ⟨⟨hu.plausible, hu.gain, hu.ptat, hu.ambient, ⟨hx, hxs.trans hu.surroundings.2⟩, ⟨hu.radiation.1.trans b1, b2⟩, hu.supply,
    ⟨h8, ?_⟩, hu.pixel, hu.compensation, hu.gradient, hu.drift, hu.sensitivity, hu.alpha, hu.kSTa, hu.kSTo⟩, ?_⟩
  · show em' ≤ 1
    have := hu.emissivity.2
    rw [he]; linarith
  · show |({ p with emissivity := em', given := g } : PixelInputs).signal| ≤ p.sensitivity *
      ({ p with emissivity := em', given := g } : PixelInputs).radiation / 2
    rw [hsig, abs_mul, abs_of_pos (by norm_num : (0 : ℝ) < 20 / 19)]
    refine hs.trans ?_
    have := mul_le_mul_of_nonneg_left b1 hα.le
    linarith

theorem shown_640 (M : Word → Word) (em : ℝ) (refl : Option ℝ) (sp : Subpage) (dest : List ℝ) :
    ∃ dest' tA, Taken Driver.new640 24 .thermal M em refl sp dest dest' tA := by
  obtain ⟨s', d, d', dest', hd, -, -, -, -⟩ := imaged_640 (F := ℝ) M sp dest
  obtain ⟨d', dest', hg, heard⟩ := set_image (n := 24) M em refl sp dest (Or.inl ⟨rfl, hd⟩)
  exact ⟨dest', _, _, _, _, _, _, _, _, _, d, _, d', _, hd, rfl, rfl, rfl, heard, rfl, Or.inl hg⟩

theorem shown_641 (M : Word → Word) (hD : ∀ a ∈ Ee641.readAddresses 192, WithinOneBit (eepromOf M a) (codeword (values641 a)))
    (em : ℝ) (refl : Option ℝ) (sp : Subpage) (dest : List ℝ) :
    ∃ dest' tA, Taken Driver.new641 12 .thermal M em refl sp dest dest' tA := by
  have hst2 : StaticMemory (recorded (cameraBus 0x33#8)) 0x33#8 Prod.fst := static_recorded (cameraBus_static 0x33#8)
  have hv2 : ∀ cam, Serves (recorded (cameraBus 0x33#8)) cam 0x33#8 Prod.fst := fun cam =>
    ⟨fun s => (cameraBus_serves cam 0x33#8).read s.1, fun s => (cameraBus_serves cam 0x33#8).write s.1,
      fun s => (cameraBus_serves cam 0x33#8).eeprom s.1⟩
  obtain ⟨s', d, hd⟩ := ((C68_construction (F := ℝ) .wrapping _ (M, []) _ hst2).2 (hv2 _)).2 ⟨values641, hD, Or.inl rfl⟩
  obtain ⟨d', dest', hg, heard⟩ := set_image (n := 12) M em refl sp dest (Or.inr ⟨rfl, hd⟩)
  exact ⟨dest', _, _, _, _, _, _, _, _, _, d, _, d', _, hd, rfl, rfl, rfl, heard, rfl, Or.inl hg⟩

/-- Pixel 367 of the MLX90640 of C75's example: with an emissivity of 0.95 instead of 1, the temperature is higher; and, with 0.95, it is
lower if surroundings are taken to have their default temperature instead of one degree less. -/
example (dest : List ℝ) (hdest : dest.length = 768) :
    let s := (Mlx90640Memory.pixel sceneMemory 1 none .zero 367).surroundings
    ∃ d1 d2 d3 t1 t2 t3, Taken Driver.new640 24 .thermal sceneMemory (1 : ℝ) none .zero dest d1 t1 ∧
      Taken Driver.new640 24 .thermal sceneMemory (19 / 20 : ℝ) none .zero dest d2 t2 ∧
      Taken Driver.new640 24 .thermal sceneMemory (19 / 20 : ℝ) (some (s - 1)) .zero dest d3 t3 ∧
      t1 = t2 ∧ t1 = t3 ∧ ∃ x y z, d1[367]? = some x ∧ d2[367]? = some y ∧ d3[367]? = some z ∧ x < y ∧ y < z := by
  intro s
  obtain ⟨hu, hs, -, -, -, h525⟩ := scene_usual_well
  have hsur : s = (Mlx90640Memory.pixel sceneMemory 1 none .zero 367).ambient - 8 := rfl
  have hroom : |(Mlx90640Memory.pixel sceneMemory 1 none .zero 367).signal| * (20 / 19) ≤
      (Mlx90640Memory.pixel sceneMemory 1 none .zero 367).sensitivity * (Mlx90640Memory.pixel sceneMemory 1 none .zero 367).radiation / 2 := by
    have hsr := (scene_usual_well).2.2.2.2.1
    linarith
  have hamb := hu.ambient
  have h1 : (Mlx90640Memory.pixel sceneMemory (19 / 20) none .zero 367).Usual :=
    usual_with (g := none) hu (show (19 / 20 : ℝ) = 1 * (19 / 20) by norm_num) (by norm_num) hroom hu.surroundings.1 le_rfl
      (by show s ≤ _; rw [hsur]; linarith)
  have h2 : (Mlx90640Memory.pixel sceneMemory (19 / 20) (some (s - 1)) .zero 367).Usual :=
    usual_with (g := some (s - 1)) hu (show (19 / 20 : ℝ) = 1 * (19 / 20) by norm_num) (by norm_num) hroom
      (by show -10 ≤ s - 1; rw [hsur]; linarith) (by show s - 1 ≤ s; linarith) (by show s ≤ _; rw [hsur]; linarith)
  obtain ⟨d1, t1, T1⟩ := shown_640 sceneMemory 1 none .zero dest
  obtain ⟨d2, t2, T2⟩ := shown_640 sceneMemory (19 / 20) none .zero dest
  obtain ⟨d3, t3, T3⟩ := shown_640 sceneMemory (19 / 20) (some (s - 1)) .zero dest
  have hreg := (noisy_regular 0).1
  obtain ⟨e1, x, y, k1, k2, k3, -⟩ := C118_temperatures_640 T1 T2 hreg 367 scene640.1 (by omega) hu h1
  obtain ⟨e2, z, y', k4, k5, -, k6⟩ := C118_temperatures_640 T3 T2 hreg 367 scene640.1 (by omega) h2 h1
  rw [k2] at k5
  obtain rfl := Option.some.inj k5
  exact ⟨d1, d2, d3, t1, t2, t3, T1, T2, T3, e1, e1.trans e2.symm, x, y, z, k1, k2, k4,
    k3 (by norm_num) rfl (by linarith) (by show s ≤ _; rw [hsur]; linarith),
    k6 rfl (by norm_num) (show s - 1 < s by linarith)⟩

/-- Pixel 100 of the MLX90641 of the example, with a twentieth less emissivity than it stores, and the same surroundings. -/
example (dest : List ℝ) (hdest : dest.length = 192) :
    let s := (Mlx90641Memory.pixel memory641 values641 (243 / 256) none .zero 100).surroundings
    ∃ d1 d2 d3 t1 t2 t3, Taken Driver.new641 12 .thermal memory641 (243 / 256 : ℝ) none .zero dest d1 t1 ∧
      Taken Driver.new641 12 .thermal memory641 (243 / 256 * (19 / 20) : ℝ) none .zero dest d2 t2 ∧
      Taken Driver.new641 12 .thermal memory641 (243 / 256 * (19 / 20) : ℝ) (some (s - 1)) .zero dest d3 t3 ∧
      t1 = t2 ∧ t1 = t3 ∧ ∃ x y z, d1[100]? = some x ∧ d2[100]? = some y ∧ d3[100]? = some z ∧ x < y ∧ y < z := by
  intro s
  obtain ⟨hu, hs, -, ⟨-, h560, -, h550⟩, -⟩ := usual641
  have hsur : s = (Mlx90641Memory.pixel memory641 values641 (243 / 256) none .zero 100).ambient - 5 := rfl
  have hroom : |(Mlx90641Memory.pixel memory641 values641 (243 / 256) none .zero 100).signal| * (20 / 19) ≤
      (Mlx90641Memory.pixel memory641 values641 (243 / 256) none .zero 100).sensitivity *
        (Mlx90641Memory.pixel memory641 values641 (243 / 256) none .zero 100).radiation / 2 := by
    rw [abs_of_pos (by linarith)] at hs ⊢
    linarith
  have hamb := hu.ambient
  have h1 : (Mlx90641Memory.pixel memory641 values641 (243 / 256 * (19 / 20)) none .zero 100).Usual :=
    usual_with (g := none) hu (show (243 / 256 * (19 / 20) : ℝ) = 243 / 256 * (19 / 20) from rfl) (by norm_num) hroom hu.surroundings.1 le_rfl
      (by show s ≤ _; rw [hsur]; linarith)
  have h2 : (Mlx90641Memory.pixel memory641 values641 (243 / 256 * (19 / 20)) (some (s - 1)) .zero 100).Usual :=
    usual_with (g := some (s - 1)) hu (show (243 / 256 * (19 / 20) : ℝ) = 243 / 256 * (19 / 20) from rfl) (by norm_num) hroom
      (by show -10 ≤ s - 1; rw [hsur]; linarith) (by show s - 1 ≤ s; linarith) (by show s ≤ _; rw [hsur]; linarith)
  obtain ⟨d1, t1, T1⟩ := shown_641 memory641 memory641_holds (243 / 256) none .zero dest
  obtain ⟨d2, t2, T2⟩ := shown_641 memory641 memory641_holds (243 / 256 * (19 / 20)) none .zero dest
  obtain ⟨d3, t3, T3⟩ := shown_641 memory641 memory641_holds (243 / 256 * (19 / 20)) (some (s - 1)) .zero dest
  obtain ⟨e1, x, y, k1, k2, k3, -⟩ := C118_temperatures_641 T1 T2 values641 example641_regular memory641_holds 100 (by omega) (by omega) hu h1
  obtain ⟨e2, z, y', k4, k5, -, k6⟩ := C118_temperatures_641 T3 T2 values641 example641_regular memory641_holds 100 (by omega) (by omega) h2 h1
  rw [k2] at k5
  obtain rfl := Option.some.inj k5
  exact ⟨d1, d2, d3, t1, t2, t3, T1, T2, T3, e1, e1.trans e2.symm, x, y, z, k1, k2, k4,
    k3 (by norm_num) rfl (by linarith) (by show s ≤ _; rw [hsur]; linarith),
    k6 rfl (by norm_num) (show s - 1 < s by linarith)⟩

end Mlx.Props
