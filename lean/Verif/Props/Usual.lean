import Verif.Props.LawNear
import Verif.Spec.Usual
/-
C97: in the usual range, a single bound holds for the error of images.
-/
set_option linter.unusedSectionVars false
set_option autoImplicit false
namespace Mlx.Props
open Mlx Mlx.Spec Mlx.Proofs F32Ops

theorem usual_signal {t : Calib ℝ} {ρ ε : ℝ} {r : RamData} {raw offset : Int} {kV kTa comp : ℝ} (h : UsualPixel raw offset kV kTa comp)
    (hg : |t.gain / r.gain| ≤ 2) (hT : 0 ≤ Datasheet.ambient t r ∧ Datasheet.ambient t r ≤ 50) (hs : |Datasheet.supply t ρ r - 3.3| ≤ 0.5)
    (hA : ambientError t r ≤ 600 / 2 ^ 20) (A0 : 0 ≤ ambientError t r) (hB : supplyError t ρ r ≤ 3.8 / 2 ^ 22) (B0 : 0 ≤ supplyError t ρ r)
    (hε : 0.8 ≤ ε) :
    0 ≤ signalError t ρ ε r raw offset kV kTa comp ∧ signalError t ρ ε r raw offset kV kTa comp ≤
      0.0166 + 0.0036 * (|(offset : ℝ)| * |kTa|) := by
  obtain ⟨h1, h2, h4, h5, h6⟩ := h
  unfold signalError
  dsimp only
  have hT' : |Datasheet.ambient t r - 25| ≤ 25 := by rw [abs_le]; constructor <;> linarith
  have n : |(raw : ℝ) * (t.gain / r.gain)| ≤ 4096 * 2 := by
    rw [abs_mul]
    exact mul_le_mul h1 hg (abs_nonneg _) (by norm_num)
  have a1 : 1 + |kTa| * (|Datasheet.ambient t r - 25| + 1) ≤ 1 + 1 / 64 * (25 + 1) := by gcongr
  have b1 : 1 + |kV| * (|Datasheet.supply t ρ r - 3.3| + 1) ≤ 1 + 1 * (0.5 + 1) := by gcongr
  have a0 : 0 ≤ 1 + |kTa| * (|Datasheet.ambient t r - 25| + 1) := by positivity
  have b0 : 0 ≤ 1 + |kV| * (|Datasheet.supply t ρ r - 3.3| + 1) := by positivity
  generalize 1 + |kTa| * (|Datasheet.ambient t r - 25| + 1) = a at *
  generalize 1 + |kV| * (|Datasheet.supply t ρ r - 3.3| + 1) = b at *
  have k0 := abs_nonneg kTa
  have l0 := abs_nonneg kV
  have o0 := abs_nonneg (offset : ℝ)
  have c0 := abs_nonneg comp
  have w0 := abs_nonneg ((raw : ℝ) * (t.gain / r.gain))
  have e0 : 0 < |ε| := abs_pos.2 (by linarith)
  have e1 : 0.8 ≤ |ε| := hε.trans (le_abs_self ε)
  generalize |ε| = e at *
  generalize |kTa| = x at *
  generalize |kV| = y at *
  generalize |(offset : ℝ)| = z at *
  generalize |comp| = c at *
  generalize |(raw : ℝ) * (t.gain / r.gain)| = w at *
  generalize ambientError t r = eA at *
  generalize supplyError t ρ r = eB at *
  refine ⟨by positivity, ?_⟩
  rw [div_le_iff₀ e0]
  have t1 : (z + 1) * x * (b * eA) ≤ (z * x + 1 / 64) * ((1 + 1 * (0.5 + 1)) * (600 / 2 ^ 20)) := by
    refine mul_le_mul (by linarith) (by gcongr) (by positivity) (by positivity)
  have t2 : (z + 1) * a * y * eB ≤ (1000 + 1) * (1 + 1 / 64 * (25 + 1)) * 1 * (3.8 / 2 ^ 22) := by gcongr
  have t3 : (z + 1) * a * b ≤ (1000 + 1) * (1 + 1 / 64 * (25 + 1)) * (1 + 1 * (0.5 + 1)) := by gcongr
  have hsum : 2 * (z + 1) * (b * x * eA + a * y * eB) = 2 * ((z + 1) * x * (b * eA)) + 2 * ((z + 1) * a * y * eB) := by ring
  rw [hsum]
  generalize (z + 1) * x * (b * eA) = u1 at *
  generalize (z + 1) * a * y * eB = u2 at *
  generalize (z + 1) * a * b = u3 at *
  have m0 : 0 ≤ z * x := mul_nonneg o0 k0
  generalize z * x = m at *
  have m1 := mul_nonneg m0 (sub_nonneg.2 e1)
  norm_num at t1 t2 t3 n ⊢
  nlinarith

set_option maxHeartbeats 1000000 in
/-- The errors in a usual scene are small. -/
theorem usual_errors {p : PixelInputs} (h : p.UsualScene) {δ : ℝ} (d0 : 0 ≤ δ) (d1 : δ ≤ 1 / 2 ^ 22) :
    Readable p.table (correction p.table p.control) p.readings ∧ 479 ≤ p.sensitivity * p.radiation ∧
    (0 ≤ p.relativeSignalError ∧ p.relativeSignalError ≤ 1718 / 10 ^ 7) ∧
      (0 ≤ p.relativeSensitivityError ∧ p.relativeSensitivityError ≤ 72 / 10 ^ 7) ∧
      0 ≤ p.relativeRadiationError δ ∧ p.relativeRadiationError δ ≤ 1811 / 10 ^ 7 := by
  obtain ⟨pl, ⟨g1, g2, g3⟩, pt, ⟨T0, T1⟩, ⟨S0, S1⟩, ⟨R0, R1⟩, ⟨su1, su2⟩, ⟨ε0, ε1⟩, px, cp, gr, dr, ⟨α0, α1⟩, ⟨al0, al1⟩, ka, ko⟩ := h
  have T0' : 0 ≤ Datasheet.ambient p.table p.readings := T0
  have T1' : Datasheet.ambient p.table p.readings ≤ 50 := T1
  have A0 : 0 ≤ ambientError p.table p.readings := le_trans (by positivity) (ambientError_nonneg _ _)
  have hA : ambientError p.table p.readings ≤ 600 / 2 ^ 20 := by
    unfold ambientError
    have : |ptatVoltage p.table p.readings| / |p.table.kTptat| ≤ 500 :=
      (div_le_iff₀ (abs_pos.2 pl.kTptat)).2 pt
    rw [abs_of_nonneg T0']
    gcongr
    linarith
  have hB : supplyError p.table (correction p.table p.control) p.readings ≤ 3.8 / 2 ^ 22 := by
    unfold supplyError
    gcongr
    linarith
  have B0 : 0 ≤ supplyError p.table (correction p.table p.control) p.readings := by
    unfold supplyError
    exact div_nonneg (add_nonneg (abs_nonneg _) (by norm_num)) (by norm_num)
  have hsup := abs_le.1 su2
  have hread : Readable p.table (correction p.table p.control) p.readings := by
    refine ⟨pl, ⟨g1, g2⟩, ?_, ?_, ?_, hA.trans (by norm_num)⟩
    · have := abs_le.1 cp.value
      have h1 : (-4096 : Int) ≤ p.readings.compensationPixel := by exact_mod_cast this.1
      have h2 : p.readings.compensationPixel ≤ (4096 : Int) := by exact_mod_cast this.2
      unfold Fits16
      omega
    · rw [abs_le]; constructor <;> linarith
    · rw [abs_le]; constructor <;> linarith
  have q1 := usual_signal (t := p.table) (ρ := correction p.table p.control) (ε := p.emissivity) (r := p.readings) px g3 ⟨T0', T1'⟩ su2 hA A0 hB B0 ε0
  have q2 := usual_signal (t := p.table) (ρ := correction p.table p.control) (ε := p.emissivity) (r := p.readings) cp g3 ⟨T0', T1'⟩ su2 hA A0 hB B0 ε0
  have hce : 0 ≤ p.signalError ∧ p.signalError ≤ 0.08224 := by
    unfold PixelInputs.signalError compensatedError
    have h1 := mul_le_mul_of_nonneg_left q2.2 (abs_nonneg (p.table.tgc.getD 0))
    have h2 := mul_nonneg (abs_nonneg (p.table.tgc.getD 0)) q2.1
    constructor
    · linarith [q1.1]
    · rw [mul_add, mul_left_comm] at h1
      linarith [q1.2]
  have p0 : 0 < p.sensitivity := lt_of_lt_of_le (by norm_num) α0
  have r0 : 0 < p.radiation := lt_of_lt_of_le (by norm_num) R0
  have αR0 : 0 < p.sensitivity * p.radiation := mul_pos p0 r0
  have αR : 479 ≤ p.sensitivity * p.radiation := by
    calc (479 : ℝ) ≤ 1 / 10 ^ 7 * (-10 + 273.15) ^ 4 := by norm_num
      _ ≤ _ := by gcongr
  have bounds : (0 ≤ p.relativeSignalError ∧ p.relativeSignalError ≤ 1718 / 10 ^ 7) ∧
      (0 ≤ p.relativeSensitivityError ∧ p.relativeSensitivityError ≤ 72 / 10 ^ 7) ∧
      0 ≤ p.relativeRadiationError δ ∧ p.relativeRadiationError δ ≤ 1811 / 10 ^ 7 := by
    refine ⟨⟨?_, ?_⟩, ⟨?_, ?_⟩, ?_, ?_⟩
    · exact div_nonneg hce.1 αR0.le
    · show p.signalError / (p.sensitivity * p.radiation) ≤ _
      rw [div_le_iff₀ αR0]
      have := hce.2
      norm_num at this ⊢
      linarith
    · show 0 ≤ sensitivityError _ _ _ _
      unfold sensitivityError
      dsimp only
      positivity
    · show sensitivityError _ _ _ _ ≤ _
      unfold sensitivityError
      dsimp only
      rw [abs_of_pos al0]
      have c1 := abs_le.1 al1
      generalize p.table.tgc.getD 0 * p.table.alphaCp p.subpage = c at *
      have hT' : |Datasheet.ambient p.table p.readings - 25| ≤ 25 := by rw [abs_le]; constructor <;> linarith
      have s1 : (p.alpha + |c|) / 2 ^ 21 / |p.alpha - c| ≤ 5 / 3 / 2 ^ 21 := by
        have : 0 < p.alpha - c := by linarith
        rw [abs_of_pos this, div_le_iff₀ this]
        norm_num
        linarith
      have s2 : |p.table.kSTa| * ambientError p.table p.readings ≤ 1 / 256 * (600 / 2 ^ 20) := by gcongr
      have s3 : |p.table.kSTa| * (|Datasheet.ambient p.table p.readings - 25| + 1) ≤ 1 / 256 * (25 + 1) := by gcongr
      have s4 : |p.table.kSTa * (Datasheet.ambient p.table p.readings - 25)| ≤ 1 / 256 * 25 := by
        rw [abs_mul]; gcongr
      have s4 := abs_le.1 s4
      have s5 : 231 / 256 ≤ |1 + p.table.kSTa * (Datasheet.ambient p.table p.readings - 25)| :=
        le_trans (by linarith) (le_abs_self _)
      have s6 : (|p.table.kSTa| * ambientError p.table p.readings +
          (1 + |p.table.kSTa| * (|Datasheet.ambient p.table p.readings - 25| + 1)) / 2 ^ 22) /
            |1 + p.table.kSTa * (Datasheet.ambient p.table p.readings - 25)| ≤
          (1 / 256 * (600 / 2 ^ 20) + (1 + 1 / 256 * (25 + 1)) / 2 ^ 22) / (231 / 256) := by
        refine div_le_div₀ (by norm_num) ?_ (by norm_num) s5
        gcongr
      norm_num at s1 s6 ⊢
      linarith
    · show 0 ≤ reflectedError _ _ _ _ _ _
      unfold reflectedError powerError
      have p1 : 0 ≤ p.ambient + 273.15 := by linarith
      have p2 : 0 ≤ p.surroundings + 273.15 := by linarith
      have e0 : 0 ≤ surroundingsError (ambientError p.table p.readings) p.given := by
        cases p.given <;> simp only [surroundingsError] <;> linarith
      refine div_nonneg ?_ r0.le
      positivity
    · show reflectedError _ _ _ _ _ _ ≤ _
      unfold reflectedError powerError
      have e0 : 0 ≤ surroundingsError (ambientError p.table p.readings) p.given := by
        cases p.given <;> simp only [surroundingsError] <;> linarith
      have e1 : surroundingsError (ambientError p.table p.readings) p.given ≤ 2 * (600 / 2 ^ 20) := by
        cases p.given <;> simp only [surroundingsError]
        · linarith
        · norm_num
      generalize surroundingsError (ambientError p.table p.readings) p.given = eR at *
      have R0' : (-10 + 273.15) ^ 4 ≤ Datasheet.reflected p.ambient p.surroundings p.emissivity := R0
      have r0' : 0 < Datasheet.reflected p.ambient p.surroundings p.emissivity := r0
      rw [div_le_iff₀ r0', abs_of_pos (by linarith : 0 < p.emissivity)]
      have p1 : p.ambient + 273.15 ≤ 323.15 := by linarith
      have p2 : p.surroundings + 273.15 ≤ 323.15 := by linarith
      have p1' : 0 ≤ p.ambient + 273.15 := by linarith
      have p2' : 0 ≤ p.surroundings + 273.15 := by linarith
      have u1 : 6 * (p.ambient + 273.15) ^ 3 * (ambientError p.table p.readings + 2 * δ * (p.ambient + 273.15 + 273.15)) ≤
          6 * 323.15 ^ 3 * (600 / 2 ^ 20 + 2 * (1 / 2 ^ 22) * (323.15 + 273.15)) := by gcongr
      have u2 : 6 * (p.surroundings + 273.15) ^ 3 * (eR + 2 * δ * (p.surroundings + 273.15 + 273.15)) ≤
          6 * 323.15 ^ 3 * (2 * (600 / 2 ^ 20) + 2 * (1 / 2 ^ 22) * (323.15 + 273.15)) := by gcongr
      have u1' : 0 ≤ 6 * (p.ambient + 273.15) ^ 3 * (ambientError p.table p.readings + 2 * δ * (p.ambient + 273.15 + 273.15)) := by positivity
      have u2' : 0 ≤ 6 * (p.surroundings + 273.15) ^ 3 * (eR + 2 * δ * (p.surroundings + 273.15 + 273.15)) := by positivity
      generalize 6 * (p.ambient + 273.15) ^ 3 * (ambientError p.table p.readings + 2 * δ * (p.ambient + 273.15 + 273.15)) = x at *
      generalize 6 * (p.surroundings + 273.15) ^ 3 * (eR + 2 * δ * (p.surroundings + 273.15 + 273.15)) = y at *
      have u3 : (y + x) / p.emissivity ≤ (y + x) / 0.8 := by gcongr
      norm_num at u1 u2 u3 R0' ⊢
      linarith
  exact ⟨hread, αR, bounds⟩

/-- A usual measurement is a typical scene, with small errors. -/
theorem usual_typical {p : PixelInputs} (h : p.Usual) {δ : ℝ} (d0 : 0 ≤ δ) (d1 : δ ≤ 1 / 2 ^ 22) :
    Readable p.table (correction p.table p.control) p.readings ∧
    Typical p.signal p.sensitivity p.radiation p.kSTo p.relativeSignalError p.relativeSensitivityError (p.relativeRadiationError δ) δ ∧
    1610 * (p.relativeSignalError + p.relativeRadiationError δ) + 3610 * p.relativeSensitivityError + 12700 * δ ≤ 0.6 := by
  obtain ⟨hread, αR, ⟨v0, v1⟩, ⟨a0, a1⟩, e0, e1⟩ := usual_errors h.toUsualScene d0 d1
  have ⟨α0, α1⟩ := h.sensitivity
  have ⟨R0, R1⟩ := h.radiation
  have ko := h.kSTo
  have ct := h.contrast
  have αR0 : 0 < p.sensitivity * p.radiation := by linarith
  refine ⟨hread, ⟨⟨le_trans (by norm_num) α0, α1⟩, ⟨le_trans (by norm_num) R0, R1.trans (by norm_num)⟩, ?_, ko,
    ⟨v0, v1.trans (by norm_num)⟩, ⟨a0, a1.trans (by norm_num)⟩, ⟨e0, e1.trans (by norm_num)⟩, d0, d1.trans (by norm_num)⟩, ?_⟩
  · unfold contrast
    rw [abs_div, abs_of_pos αR0, div_le_iff₀ αR0]
    linarith
  · norm_num at v1 a1 e1 d1 ⊢
    linarith

/-- What C74 says about a usual measurement. -/
theorem usual_computable {p : PixelInputs} (h : p.Usual) {δ : ℝ} (d0 : 0 ≤ δ) (d1 : δ ≤ 1 / 2 ^ 22) :
    p.Computable δ ∧ p.temperatureError δ ≤ 0.6 := by
  obtain ⟨k1, k2, k3⟩ := usual_typical h d0 d1
  obtain ⟨k4, k5⟩ := C74_typical k2
  have e := h.emissivity
  have a := h.ambient
  have u := h.surroundings
  refine ⟨⟨⟨k1, ?_, ?_⟩, ⟨by linarith, by linarith, by linarith⟩, k4⟩, k5.trans k3⟩
  · exact le_trans (le_trans (by norm_num) e.1) (le_abs_self _)
  · rw [abs_of_nonneg (by linarith)]
    exact e.2.trans (by norm_num)

section
variable {F σ ER EW : Type} [F32Ops F] [Binary32 F] {mem : σ → Word → Word}

theorem drawn_usual {measured : Nat → Prop} {p : Nat → PixelInputs} {δ : ℝ} (hp : AccuratePowers F δ) (d1 : δ ≤ 1 / 2 ^ 22)
    {dest dest' : List F}
    (h : DrawnNear measured (fun i => (p i).Computable δ) (fun i => (p i).temperature) (fun i => (p i).temperatureError δ) dest dest')
    (i : Nat) (hi : i < dest.length) (hm : measured i) (hu : (p i).Usual) :
    ∃ v, dest'[i]? = some v ∧ Within v (p i).temperature 0.6 ∧ ∀ To, (p i).Sees To → Within v To 1.2 := by
  obtain ⟨k1, k2⟩ := usual_computable hu (le_trans (by norm_num) hp.unit) d1
  obtain ⟨v, v1, v2⟩ := (h.2 i).1 hm k1 hi
  refine ⟨v, v1, Within.mono v2 k2, fun To hs => ?_⟩
  obtain ⟨w, w1, w2⟩ := drawn_sees h i To hm hi k1 hs
  obtain rfl : v = w := Option.some.inj (v1.symm.trans w1)
  exact Within.mono w2 (by linarith)

/-- **C97 (MLX90640).** In the setting of C75, with powers and roots as precise as those of the usual libraries: each pixel of an image that
is measured, and is a usual measurement, is within 0.6 °C of the documented temperature; and if it looks at an object that follows the law of
the sensor, within 1.2 °C of the temperature of the object. -/
theorem C97_camera_640 (m : Mode) (b : Bus σ ER EW) (s s' : σ) (addr : Byte) (h : StaticMemory b addr mem)
    (d : Driver F σ) (hd : Driver.new640 m b s addr = (s', .ok d)) (hreg : Ee640.Regular (eepromOf (mem s)))
    (calls : List (Op F × Res (Err ER EW) Unit)) (d1 : Driver F σ) (hx : Session ⟨m, 24, b⟩ mem anyFrame d calls d1)
    (hn : ∀ c ∈ calls, ¬ ControlWriteFailed c.1 c.2) {δ : ℝ} (hp : AccuratePowers F δ) (hδ : δ ≤ 1 / 2 ^ 22) (em : ℝ)
    (given : Option ℝ) (dest dest' : List F) (d' : Driver F σ) (i : Nat) (hi : i < dest.length) :
    let env : Env σ ER EW := ⟨m, 24, b⟩
    let M := mem d1.bus
    let p := Mlx90640Memory.pixel M em given
    let right := fun sp => Mlx90640Memory.measured M sp i → (p sp i).Usual →
      ∃ v, dest'[i]? = some v ∧ Within v (p sp i).temperature 0.6 ∧ ∀ To, (p sp i).Sees To → Within v To 1.2
    Is d1.effectiveEmissivity em → Option.Rel Is d1.reflectedTemperature given →
    (∀ sp, Driver.generateImageSubpageTo env sp dest d1 = (d', dest', .ok ()) → right sp) ∧
    (Driver.generateImageTo env dest d1 = (d', dest', .ok ()) → right (statusSubpage (M 0x8000#16))) ∧
    (Driver.generateImageIfReady env dest d1 = (d', dest', .ok true) → right (statusSubpage (M 0x8000#16))) := by
  intro env M p right hem hgiven
  obtain ⟨-, k1, k2, k3⟩ := C75_camera_640 m b s s' addr h d hd hreg calls d1 hx hn hp em given dest dest' d' hem hgiven
  exact ⟨fun sp hg hm hu => drawn_usual hp hδ (k1 sp hg).2 i hi hm hu, fun hg hm hu => drawn_usual hp hδ (k2 hg).2 i hi hm hu,
    fun hg hm hu => drawn_usual hp hδ (k3 hg).2.2 i hi hm hu⟩

/-- **C97 (MLX90641).** The same for the MLX90641. -/
theorem C97_camera_641 (m : Mode) (b : Bus σ ER EW) (s s' : σ) (addr : Byte) (h : StaticMemory b addr mem)
    (d : Driver F σ) (hd : Driver.new641 m b s addr = (s', .ok d)) (D : Nat → BitVec 11) (hreg : Ee641.Regular D)
    (hD : ∀ a ∈ Ee641.readAddresses 192, WithinOneBit (eepromOf (mem s) a) (codeword (D a))) (hmod : ModerateScales D)
    (calls : List (Op F × Res (Err ER EW) Unit)) (d1 : Driver F σ) (hx : Session ⟨m, 12, b⟩ mem anyFrame d calls d1)
    (hn : ∀ c ∈ calls, ¬ ControlWriteFailed c.1 c.2) {δ : ℝ} (hp : AccuratePowers F δ) (hδ : δ ≤ 1 / 2 ^ 22) (em : ℝ)
    (given : Option ℝ) (dest dest' : List F) (d' : Driver F σ) (i : Nat) (hi : i < dest.length) :
    let env : Env σ ER EW := ⟨m, 12, b⟩
    let M := mem d1.bus
    let p := Mlx90641Memory.pixel M D em given
    let right := fun sp => i < 192 → (p sp i).Usual →
      ∃ v, dest'[i]? = some v ∧ Within v (p sp i).temperature 0.6 ∧ ∀ To, (p sp i).Sees To → Within v To 1.2
    Is d1.effectiveEmissivity em → Option.Rel Is d1.reflectedTemperature given →
    (∀ sp, Driver.generateImageSubpageTo env sp dest d1 = (d', dest', .ok ()) → right sp) ∧
    (Driver.generateImageTo env dest d1 = (d', dest', .ok ()) → right (statusSubpage (M 0x8000#16))) ∧
    (Driver.generateImageIfReady env dest d1 = (d', dest', .ok true) → right (statusSubpage (M 0x8000#16))) := by
  intro env M p right hem hgiven
  obtain ⟨-, k1, k2, k3⟩ := C75_camera_641 m b s s' addr h d hd D hreg hD hmod calls d1 hx hn hp em given dest dest' d' hem hgiven
  exact ⟨fun sp hg hm hu => drawn_usual hp hδ (k1 sp hg).2 i hi hm hu, fun hg hm hu => drawn_usual hp hδ (k2 hg).2 i hi hm hu,
    fun hg hm hu => drawn_usual hp hδ (k3 hg).2.2 i hi hm hu⟩
end

set_option maxHeartbeats 1000000 in
/-- Pixel 367 of the memory of C75's example is a usual measurement, and not just so. -/
theorem scene_usual_well : (Mlx90640Memory.pixel sceneMemory 1 none .zero 367).Usual ∧
    |(Mlx90640Memory.pixel sceneMemory 1 none .zero 367).signal| + 35 ≤ (Mlx90640Memory.pixel sceneMemory 1 none .zero 367).sensitivity *
      (Mlx90640Memory.pixel sceneMemory 1 none .zero 367).radiation / 2 ∧
    |(Mlx90640Memory.pixel sceneMemory 1 none .zero 367).table.gain / (Mlx90640Memory.pixel sceneMemory 1 none .zero 367).readings.gain| ≤
      1.1 ∧
    0.92 ≤ (Mlx90640Memory.pixel sceneMemory 1 none .zero 367).table.gain /
      (Mlx90640Memory.pixel sceneMemory 1 none .zero 367).readings.gain ∧
    (Mlx90640Memory.pixel sceneMemory 1 none .zero 367).sensitivity * (Mlx90640Memory.pixel sceneMemory 1 none .zero 367).radiation ≤ 1150 ∧
    525 ≤ (Mlx90640Memory.pixel sceneMemory 1 none .zero 367).signal := by
  have hpd := scene_pixel
  generalize Mlx90640Memory.pixel sceneMemory 1 none .zero 367 = p at hpd
  have hplaus := plausible640
  generalize ht : Ee640.calibration (eepromWord example640) = t at hpd hplaus
  obtain ⟨⟨e1, e2, e3, e4, e5, e6, e7⟩, ⟨g1, g2, -, g4, g5⟩, ⟨c1, c2, c3, c4, c5⟩, -⟩ := parameters640 t ht.symm
  have hcorr : correction t 0x1901#16 = 1 := by
    unfold correction
    rw [g5]
    exact div_self (by positivity)
  have hpat : pattern 0x1901#16 = .chess := by decide
  have hV : Datasheet.deltaV t readings640 = 59 / 3168 := by
    unfold Datasheet.deltaV readings640
    rw [e1, e2]; norm_num
  have hT : Datasheet.ambient t readings640 = 136099541231863 / 3473307198907 := by
    unfold Datasheet.ambient
    rw [hV, e4, e5, e6, e7]; unfold readings640; norm_num
  have hP : ptatVoltage t readings640 = 264552805564416 / 20552113603 := by
    unfold ptatVoltage
    rw [hV, e4, e6]; unfold readings640; norm_num
  have hs : Datasheet.supply t 1 readings640 = 59 / 3168 + 3.3 := by
    unfold Datasheet.supply
    rw [hV, e3]; norm_num
  have hS : Datasheet.compensatedSignal t 1 1 readings640 .zero .chess 512 (-75) (4 / 2 ^ 3) (84 / 2 ^ 14) 0 =
      5174955840091582878902627 / 9845308323733540962304 := by
    unfold Datasheet.compensatedSignal Datasheet.signal
    rw [hT, hs, g1, g4, c1, c3, c4, c5]
    unfold readings640
    simp only [Option.getD_some, Option.getD_none]
    push_cast
    norm_num
  have hα : Datasheet.sensitivity t readings640 .zero (17348 / 2 ^ 37) = 1814222945991819903 / 15275766608145338312163328 := by
    unfold Datasheet.sensitivity
    rw [hT, g2, g4, c2]; norm_num
  have pS : p.signal = 5174955840091582878902627 / 9845308323733540962304 := by
    rw [hpd]
    unfold PixelInputs.signal pixelSignal
    simp only [hcorr, hpat]
    exact hS
  have pα : p.sensitivity = 1814222945991819903 / 15275766608145338312163328 := by rw [hpd]; exact hα
  have pA : p.ambient = 136099541231863 / 3473307198907 := by rw [hpd]; exact hT
  have pU : p.surroundings = 136099541231863 / 3473307198907 - 8 := by
    rw [hpd]
    unfold PixelInputs.surroundings PixelInputs.ambient
    simp only [hT, Option.getD_none]
  have pR : p.radiation = (136099541231863 / 3473307198907 + 273.15) ^ 4 := by
    rw [hpd]
    unfold PixelInputs.radiation PixelInputs.surroundings PixelInputs.ambient
    simp only [hT, Option.getD_none]
    unfold Datasheet.reflected
    rw [div_one, sub_sub_cancel]
  have hg : |t.gain / ((readings640.gain : Int) : ℝ)| ≤ 1.1 := by
    rw [g1]; unfold readings640; norm_num [abs_of_pos]
  refine ⟨⟨⟨?_, ?_, ?_, ?_, ?_, ?_, ?_, ?_, ?_, ?_, ?_, ?_, ?_, ?_, ?_, ?_⟩, ?_⟩, ?_, by rw [hpd]; exact hg, ?_, ?_, by rw [pS]; norm_num⟩
  · rw [hpd]; exact hplaus
  · rw [hpd]
    refine ⟨show readings640.gain ≠ 0 by decide, show Fits16 readings640.gain by unfold Fits16; decide, ?_⟩
    show |t.gain / ((readings640.gain : Int) : ℝ)| ≤ 2
    rw [g1]; unfold readings640; norm_num [abs_of_pos]
  · rw [hpd]
    show |ptatVoltage t readings640| ≤ 500 * |t.kTptat|
    rw [hP, e5]; norm_num [abs_of_pos]
  · rw [pA]; norm_num
  · rw [pU]; norm_num
  · rw [pR]; norm_num
  · rw [hpd]
    show |correction t 0x1901#16 * Datasheet.deltaV t readings640| ≤ 0.5 ∧ |Datasheet.supply t (correction t 0x1901#16) readings640 - 3.3| ≤ 0.5
    rw [hcorr, hs, hV]; norm_num [abs_of_pos]
  · rw [hpd]; norm_num
  · rw [hpd]
    constructor <;> norm_num [abs_of_pos]
  · rw [hpd]
    show UsualPixel readings640.compensationPixel (t.offsetRefCp .zero) (t.kVCp .zero) (t.kTaCp .zero) ((t.apCompCp .zero (pattern 0x1901#16)).getD 0)
    rw [hpat, c1, c3, c4, c5]
    unfold readings640
    constructor <;> norm_num [abs_of_pos]
  · rw [hpd]
    show |t.tgc.getD 0| ≤ 1
    rw [g4]; norm_num
  · rw [hpd]
    show |((-75 : Int) : ℝ)| * |(84 : ℝ) / 2 ^ 14| + |t.tgc.getD 0| * (|(t.offsetRefCp .zero : ℝ)| * |t.kTaCp .zero|) ≤ 2.2
    rw [g4, c1, c4]; norm_num [abs_of_pos]
  · rw [pα]; norm_num
  · rw [hpd]
    show (0 : ℝ) < 17348 / 2 ^ 37 ∧ |t.tgc.getD 0 * t.alphaCp .zero| ≤ 17348 / 2 ^ 37 / 4
    rw [g4, c2]; norm_num [abs_of_pos]
  · rw [hpd]
    show |t.kSTa| ≤ _
    rw [g2]; norm_num [abs_of_pos]
  · rw [hpd]
    show |(-105 : ℝ) / 2 ^ 17| ≤ _
    norm_num [abs_of_pos]
  · rw [pS, pα, pR]; norm_num [abs_of_pos]
  · rw [pS, pα, pR]; norm_num [abs_of_pos]
  · rw [hpd]
    show 0.92 ≤ t.gain / ((readings640.gain : Int) : ℝ)
    rw [g1]; unfold readings640; norm_num
  · rw [pα, pR]; norm_num

theorem scene_usual : (Mlx90640Memory.pixel sceneMemory 1 none .zero 367).Usual := scene_usual_well.1

/-- And it looks at an object that follows the law. -/
example : ∃ To, 40 ≤ To ∧ To ≤ 100 ∧ (Mlx90640Memory.pixel sceneMemory 1 none .zero 367).Usual ∧
    (Mlx90640Memory.pixel sceneMemory 1 none .zero 367).Sees To ∧ Mlx90640Memory.measured sceneMemory .zero 367 := by
  obtain ⟨To, h1, h2, h3⟩ := scene_sees
  exact ⟨To, h1, h2, scene_usual, h3, scene640.1⟩

end Mlx.Props
