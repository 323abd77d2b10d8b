import Verif.Props.Usual
import Verif.Props.HeardNear
import Verif.Spec.Broken
/-
C111: broken pixels show the temperature of the surroundings.
-/
set_option linter.unusedSectionVars false
set_option autoImplicit false
namespace Mlx.Props
open Mlx Mlx.Spec Mlx.Proofs F32Ops

theorem signal_bound {t : Calib ℝ} {ρ ε : ℝ} {r : RamData} {raw offset : Int} {kV kTa comp : ℝ} (h : UsualPixel raw offset kV kTa comp)
    (hg : |t.gain / r.gain| ≤ 2) (hT : 0 ≤ Datasheet.ambient t r ∧ Datasheet.ambient t r ≤ 50) (hs : |Datasheet.supply t ρ r - 3.3| ≤ 0.5)
    (hε : 0.8 ≤ ε) : |Datasheet.signal t ρ ε r raw offset kV kTa comp| ≤ 12868 := by
  obtain ⟨h1, h2, h4, h5, h6⟩ := h
  unfold Datasheet.signal
  have hT' : |Datasheet.ambient t r - 25| ≤ 25 := by rw [abs_le]; constructor <;> linarith
  have n : |(raw : ℝ) * (t.gain / r.gain)| ≤ 4096 * 2 := by
    rw [abs_mul]
    exact mul_le_mul h1 hg (abs_nonneg _) (by norm_num)
  have a1 : |1 + kTa * (Datasheet.ambient t r - 25)| ≤ 1 + 1 / 64 * 25 := by
    refine (abs_add_le _ _).trans ?_
    rw [abs_mul, abs_one]
    gcongr
  have b1 : |1 + kV * (Datasheet.supply t ρ r - 3.3)| ≤ 1 + 1 * 0.5 := by
    refine (abs_add_le _ _).trans ?_
    rw [abs_mul, abs_one]
    gcongr
  have o : |(offset : ℝ) * (1 + kTa * (Datasheet.ambient t r - 25)) * (1 + kV * (Datasheet.supply t ρ r - 3.3))| ≤
      1000 * (1 + 1 / 64 * 25) * (1 + 1 * 0.5) := by
    rw [abs_mul, abs_mul]
    gcongr
  have e0 : 0 < |ε| := abs_pos.2 (by linarith)
  have e1 : 0.8 ≤ |ε| := hε.trans (le_abs_self ε)
  rw [abs_div, div_le_iff₀ e0]
  generalize (offset : ℝ) * (1 + kTa * (Datasheet.ambient t r - 25)) * (1 + kV * (Datasheet.supply t ρ r - 3.3)) = x at *
  generalize (raw : ℝ) * (t.gain / r.gain) = y at *
  have k1 := abs_sub (y + comp) x
  have k2 := abs_add_le y comp
  norm_num at o n e1 ⊢
  linarith

/-- A pixel whose sensitivity is a bulk one, not scaled, is flat. -/
theorem flat_contrast {p : PixelInputs} (g : |p.table.gain / p.readings.gain| ≤ 2) (T : 0 ≤ p.ambient ∧ p.ambient ≤ 50)
    (hs : |Datasheet.supply p.table (correction p.table p.control) p.readings - 3.3| ≤ 0.5) (ε : 0.8 ≤ p.emissivity)
    (px : UsualPixel p.raw p.offset p.kV p.kTa p.comp)
    (cp : UsualPixel p.readings.compensationPixel (p.table.offsetRefCp p.subpage) (p.table.kVCp p.subpage)
      (p.table.kTaCp p.subpage) ((p.table.apCompCp p.subpage (pattern p.control)).getD 0))
    (gr : |p.table.tgc.getD 0| ≤ 1) (al : |p.table.tgc.getD 0 * p.table.alphaCp p.subpage| ≤ p.alpha / 4)
    (ka : |p.table.kSTa| ≤ 1 / 256) (ha : 1000 ≤ p.alpha) (R : (-10 + 273.15) ^ 4 ≤ p.radiation) :
    676 ≤ p.sensitivity ∧ |contrast p.signal p.sensitivity p.radiation| ≤ 8 / 10 ^ 9 := by
  have hsig : |p.signal| ≤ 25736 := by
    unfold PixelInputs.signal pixelSignal Datasheet.compensatedSignal
    have q1 := signal_bound (t := p.table) (ρ := correction p.table p.control) (r := p.readings) px g T hs ε
    have q2 := signal_bound (t := p.table) (ρ := correction p.table p.control) (r := p.readings) cp g T hs ε
    refine (abs_sub _ _).trans ?_
    rw [abs_mul]
    have := mul_le_mul gr q2 (abs_nonneg _) (by norm_num)
    linarith
  have hα : 676 ≤ p.sensitivity := by
    unfold PixelInputs.sensitivity Datasheet.sensitivity
    have T0 : 0 ≤ Datasheet.ambient p.table p.readings := T.1
    have T1 : Datasheet.ambient p.table p.readings ≤ 50 := T.2
    have hT' : |Datasheet.ambient p.table p.readings - 25| ≤ 25 := by rw [abs_le]; constructor <;> linarith
    have s4 : |p.table.kSTa * (Datasheet.ambient p.table p.readings - 25)| ≤ 1 / 256 * 25 := by
      rw [abs_mul]; gcongr
    have s4 := abs_le.1 s4
    have c := abs_le.1 al
    calc (676 : ℝ) ≤ 750 * (1 - 1 / 256 * 25) := by norm_num
      _ ≤ _ := by
        refine mul_le_mul ?_ ?_ (by norm_num) ?_
        · linarith
        · linarith
        · linarith
  refine ⟨hα, ?_⟩
  have r0 : 0 < p.radiation := lt_of_lt_of_le (by norm_num) R
  have αR0 : 0 < p.sensitivity * p.radiation := mul_pos (by linarith) r0
  have αR : 676 * (-10 + 273.15) ^ 4 ≤ p.sensitivity * p.radiation := by gcongr
  unfold contrast
  rw [abs_div, abs_of_pos αR0, div_le_iff₀ αR0]
  norm_num at αR ⊢
  linarith

/-- The documented temperature of such a pixel is that of the surroundings. -/
theorem flat_temperature {p : PixelInputs} (h : p.Usual) (ha : 1000 ≤ p.alpha) : |p.temperature - p.radiantTemperature| ≤ 0.00001 := by
  obtain ⟨hα, hc⟩ := flat_contrast h.gain.2.2 h.ambient h.supply.2 h.emissivity.1 h.pixel h.compensation h.gradient h.alpha.2 h.kSTa ha
    h.radiation.1
  obtain ⟨R0, R1⟩ := h.radiation
  have hk := h.kSTo
  show |Datasheet.object p.signal p.sensitivity p.radiation p.kSTo - (p.radiation ^ (1 / 4 : ℝ) - 273.15)| ≤ _
  generalize p.signal = v at *
  generalize p.sensitivity = α at *
  generalize p.radiation = R at *
  generalize p.kSTo = k at *
  have p0 : 0 < α := by linarith
  have r0 : 0 < R := lt_of_lt_of_le (by norm_num) R0
  have hc' := abs_le.1 hc
  have y0 : 0 < 1 + contrast v α R := by linarith
  have root : ∀ {x b : ℝ}, 0 ≤ x → 0 ≤ b → x ≤ b ^ 4 → x ^ (1 / 4 : ℝ) ≤ b := by
    intro x b hx hb h
    calc x ^ (1 / 4 : ℝ) ≤ (b ^ 4) ^ (1 / 4 : ℝ) := by gcongr
      _ = b := by
        rw [← Real.rpow_natCast, ← Real.rpow_mul hb]
        norm_num
  have E1 : firstEstimate v α R ≤ 443 := by
    refine root (by positivity) (by norm_num) ?_
    calc R * (1 + contrast v α R) ≤ (126 + 273.15) ^ 4 * (3 / 2) := by
          refine mul_le_mul R1 (by linarith) y0.le (by norm_num)
      _ ≤ 443 ^ 4 := by norm_num
  have E0 : 0 < firstEstimate v α R := by unfold firstEstimate; positivity
  have slope : |k * (firstEstimate v α R - 273.15)| ≤ 0.27315 := by
    rw [abs_mul]
    calc |k| * |firstEstimate v α R - 273.15| ≤ 1 / 1000 * 273.15 := by
          gcongr
          rw [abs_le]
          constructor <;> linarith
      _ ≤ _ := by norm_num
  have s0 := abs_le.1 slope
  have s1 : 0.72 ≤ slopeFactor v α R k := by unfold slopeFactor; linarith
  have spos : 0 < slopeFactor v α R k := by linarith
  rw [object_eq p0 r0 y0 spos]
  have t1 : |trueContrast v α R k| ≤ 2 / 10 ^ 8 := by
    unfold trueContrast
    rw [abs_div, abs_of_pos spos, div_le_iff₀ spos]
    linarith
  generalize trueContrast v α R k = z at *
  have t2 := abs_le.1 t1
  have z0 : 0 < 1 + z := by linarith
  have b1 : R ^ (1 / 4 : ℝ) ≤ 400 := root r0.le (by norm_num) (R1.trans (by norm_num))
  have b0 : 0 ≤ R ^ (1 / 4 : ℝ) := Real.rpow_nonneg r0.le _
  have c1 : |(1 + z) ^ (1 / 4 : ℝ) - 1| ≤ |z| := by
    rcases le_total 0 z with h0 | h0
    · have u1 := Real.rpow_le_rpow_of_exponent_le (show 1 ≤ 1 + z by linarith) (show (1 / 4 : ℝ) ≤ 1 by norm_num)
      have u2 := Real.one_le_rpow (show 1 ≤ 1 + z by linarith) (show (0 : ℝ) ≤ 1 / 4 by norm_num)
      rw [Real.rpow_one] at u1
      rw [abs_of_nonneg h0, abs_le]
      constructor <;> linarith
    · have u1 := Real.rpow_le_rpow_of_exponent_ge z0 (show 1 + z ≤ 1 by linarith) (show (1 / 4 : ℝ) ≤ 1 by norm_num)
      have u2 := Real.rpow_le_one z0.le (show 1 + z ≤ 1 by linarith) (show (0 : ℝ) ≤ 1 / 4 by norm_num)
      rw [Real.rpow_one] at u1
      rw [abs_of_nonpos h0, abs_le]
      constructor <;> linarith
  rw [Real.mul_rpow r0.le z0.le]
  have e : R ^ (1 / 4 : ℝ) * (1 + z) ^ (1 / 4 : ℝ) - 273.15 - (R ^ (1 / 4 : ℝ) - 273.15) = R ^ (1 / 4 : ℝ) * ((1 + z) ^ (1 / 4 : ℝ) - 1) := by ring
  rw [e, abs_mul, abs_of_nonneg b0]
  calc R ^ (1 / 4 : ℝ) * |(1 + z) ^ (1 / 4 : ℝ) - 1| ≤ 400 * (2 / 10 ^ 8) := mul_le_mul b1 (c1.trans t1) (abs_nonneg _) (by norm_num)
    _ ≤ _ := by norm_num

theorem within_shift {F : Type} [F32Ops F] [Binary32 F] {v : F} {x y e d : ℝ} (h : Within v x e) (hd : |x - y| ≤ d) : Within v y (e + d) := by
  obtain ⟨w, w1, w2⟩ := h
  refine ⟨w, w1, ?_⟩
  calc |w - y| = |(w - x) + (x - y)| := by ring_nf
    _ ≤ _ := abs_add_le _ _
    _ ≤ _ := add_le_add w2 hd

/-- With an emissivity of 1, the surroundings count as having the ambient temperature. -/
theorem radiant_black {p : PixelInputs} (h : 0 ≤ p.ambient) (he : p.emissivity = 1) : p.radiantTemperature = p.ambient := by
  unfold PixelInputs.radiantTemperature PixelInputs.radiation Datasheet.reflected
  rw [he, div_one, sub_sub_cancel, ← Real.rpow_natCast, ← Real.rpow_mul (by linarith)]
  norm_num

section
variable {F σ ER EW : Type} [F32Ops F] [Binary32 F] {mem : σ → Word → Word}

/-- **C111 (MLX90640).** In the setting of C97: a pixel that the factory marked as broken shows, to 0.61 °C, the temperature that the surroundings
count as having, and with an emissivity of 1 the ambient temperature, whatever its raw value. -/
theorem C111_camera_640 (m : Mode) (b : Bus σ ER EW) (s s' : σ) (addr : Byte) (h : StaticMemory b addr mem)
    (d : Driver F σ) (hd : Driver.new640 m b s addr = (s', .ok d)) (hreg : Ee640.Regular (eepromOf (mem s)))
    (calls : List (Op F × Res (Err ER EW) Unit)) (d1 : Driver F σ) (hx : Session ⟨m, 24, b⟩ mem anyFrame d calls d1)
    (hn : ∀ c ∈ calls, ¬ ControlWriteFailed c.1 c.2) {δ : ℝ} (hp : AccuratePowers F δ) (hδ : δ ≤ 1 / 2 ^ 22) (em : ℝ)
    (given : Option ℝ) (dest dest' : List F) (d' : Driver F σ) (i : Nat) (hi : i < dest.length) :
    let env : Env σ ER EW := ⟨m, 24, b⟩
    let M := mem d1.bus
    let p := Mlx90640Memory.pixel M em given
    let right := fun sp => Mlx90640Memory.measured M sp i → Mlx90640Memory.broken M i → 1000 ≤ Mlx90640Memory.bulkSensitivity M i →
      (p sp i).Usual → ∃ v, dest'[i]? = some v ∧ Within v (p sp i).radiantTemperature 0.61 ∧ (em = 1 → Within v (p sp i).ambient 0.61)
    Is d1.effectiveEmissivity em → Option.Rel Is d1.reflectedTemperature given →
    (∀ sp, Driver.generateImageSubpageTo env sp dest d1 = (d', dest', .ok ()) → right sp) ∧
    (Driver.generateImageTo env dest d1 = (d', dest', .ok ()) → right (statusSubpage (M 0x8000#16))) ∧
    (Driver.generateImageIfReady env dest d1 = (d', dest', .ok true) → right (statusSubpage (M 0x8000#16))) := by
  intro env M p right hem hgiven
  obtain ⟨k1, k2, k3⟩ := C97_camera_640 m b s s' addr h d hd hreg calls d1 hx hn hp hδ em given dest dest' d' i hi hem hgiven
  have key : ∀ sp, (Mlx90640Memory.measured M sp i → (p sp i).Usual →
      ∃ v, dest'[i]? = some v ∧ Within v (p sp i).temperature 0.6 ∧ ∀ To, (p sp i).Sees To → Within v To 1.2) → right sp := by
    intro sp hc hm hb h1000 hu
    obtain ⟨v, v1, v2, -⟩ := hc hm hu
    have ha : 1000 ≤ (p sp i).alpha := by
      show (1000 : ℝ) ≤ Ee640.alpha (eepromOf M) i
      have hf : Ee640.isFailed (eepromOf M) i = true := by
        unfold Ee640.isFailed
        rw [show eepromOf M (0x2440 + i) = 0#16 from hb]
        rfl
      unfold Ee640.alpha
      rw [hf, if_pos rfl]
      exact_mod_cast h1000
    have w : Within v (p sp i).radiantTemperature 0.61 := Within.mono (within_shift v2 (flat_temperature hu ha)) (by norm_num)
    refine ⟨v, v1, w, fun he => ?_⟩
    rw [← radiant_black hu.ambient.1 he]
    exact w
  exact ⟨fun sp hg => key sp (k1 sp hg), fun hg => key _ (k2 hg), fun hg => key _ (k3 hg)⟩
end

/-- The memory of C75's example with pixel 367 marked as broken, whose raw value is `r`. -/
def brokenMemory (r a : Word) : Word := if a = 0x25AF#16 then 0#16 else if a = 0x056F#16 then r else sceneMemory a

theorem broken_words (r : Word) {a : Nat} (h1 : 0x2400 ≤ a) (h2 : a < 0x2740) :
    eepromOf (brokenMemory r) a = if a = 0x25AF then 0#16 else BitVec.ofNat 16 (words640 (a - 0x2400)) := by
  have hne : ∀ k : Nat, k < 0x10000 → a ≠ k → BitVec.ofNat 16 a ≠ BitVec.ofNat 16 k := by
    intro k hk hak he
    have := congrArg BitVec.toNat he
    rw [BitVec.toNat_ofNat, BitVec.toNat_ofNat, Nat.mod_eq_of_lt (by omega), Nat.mod_eq_of_lt (by omega)] at this
    exact hak this
  show brokenMemory r (BitVec.ofNat 16 a) = _
  unfold brokenMemory
  by_cases h : a = 0x25AF
  · rw [if_pos h, h, if_pos rfl]
  · rw [if_neg h, if_neg (hne 0x25AF (by omega) h), if_neg (hne 0x056F (by omega) (by omega))]
    exact (scene_same a h1 h2).symm.trans (exampleMemory_eeprom words640 h1 h2)

attribute [local irreducible] signedAt bitsAt in
/-- The inputs of pixel 367 in this memory. -/
theorem broken_pixel (r : Word) :
    Mlx90640Memory.pixel (brokenMemory r) 1 none .zero 367 =
      { table := Ee640.calibration (eepromOf (brokenMemory r)), control := 0x1901#16, readings := readings640, emissivity := 1,
        given := none, heating := 8, subpage := .zero, raw := r.toInt, offset := -77, alpha := 16708, kV := 4 / 2 ^ 3,
        kTa := 0, comp := 0, kSTo := -105 / 2 ^ 17 } ∧ Mlx90640Memory.bulkSensitivity (brokenMemory r) 367 = 16708 := by
  have hcontrol : brokenMemory r 0x800D#16 = 0x1901#16 := by unfold brokenMemory; rw [if_neg (by decide), if_neg (by decide)]; decide +kernel
  have hread : Mlx90640Memory.readings (brokenMemory r) .zero = readings640 := by
    have h1 : brokenMemory r 0x0700#16 = 0x4BF2#16 := by unfold brokenMemory; rw [if_neg (by decide), if_neg (by decide)]; decide +kernel
    have h2 : brokenMemory r 0x0720#16 = 0x06AF#16 := by unfold brokenMemory; rw [if_neg (by decide), if_neg (by decide)]; decide +kernel
    have h3 : brokenMemory r 0x072A#16 = 0xCCC5#16 := by unfold brokenMemory; rw [if_neg (by decide), if_neg (by decide)]; decide +kernel
    have h4 : brokenMemory r 0x070A#16 = 0x1AE1#16 := by unfold brokenMemory; rw [if_neg (by decide), if_neg (by decide)]; decide +kernel
    have h5 : brokenMemory r 0x0708#16 = 0xFFCA#16 := by unfold brokenMemory; rw [if_neg (by decide), if_neg (by decide)]; decide +kernel
    unfold Mlx90640Memory.readings readings640
    simp only [h1, h2, h3, h4, h5]
    congr 1
  have hraw : brokenMemory r (BitVec.ofNat 16 (0x0400 + 367)) = r := by
    unfold brokenMemory; rw [if_neg (by decide), if_pos (by decide)]
  have hpat : pattern (0x1901#16) = .chess := by decide
  have hwords : ∀ k, k < 64 → eepromOf (brokenMemory r) (0x2400 + k) = BitVec.ofNat 16 (words640 k) := by
    intro k hk
    rw [broken_words r (by omega) (by omega), if_neg (by omega), Nat.add_sub_cancel_left]
  have hz : eepromOf (brokenMemory r) (0x2440 + 367) = 0#16 := by
    rw [broken_words r (by omega) (by omega), if_pos (by norm_num)]
  unfold Mlx90640Memory.pixel Mlx90640Memory.comp Mlx90640Memory.bulkSensitivity
  generalize eepromOf (brokenMemory r) = E at *
  generalize htt : Ee640.calibration E = t
  obtain ⟨-, ⟨-, -, g3, -, -⟩, -, o, a, -, -, -, v⟩ := header640 E hwords t htt.symm
  rw [← htt] at g3
  have hf : Ee640.isFailed E 367 = true := by unfold Ee640.isFailed; rw [hz]; decide
  have q1 : Ee640.offset E 367 = -77 := by unfold Ee640.offset; rw [hf, if_pos rfl, o]; rfl
  have q2 : Ee640.alpha E 367 = 16708 := by unfold Ee640.alpha; rw [hf, if_pos rfl, a]; norm_num
  have q4 : Ee640.kTa E 367 = 0 := by unfold Ee640.kTa; rw [hf, if_pos rfl]
  have q5 : (signedAt (E 0x243D) 8 8 : ℝ) / 2 ^ (bitsAt (E 0x243F) 0 4 + 8) = -105 / 2 ^ 17 := Option.some.inj g3
  refine ⟨?_, a⟩
  simp only [htt, q1, q2, v, q4, q5, hread, hcontrol, hraw, hpat]

set_option maxHeartbeats 1000000 in
/-- Pixel 367 of this memory is a usual measurement with any raw value up to 4096 counts. -/
theorem broken_usual (r : Word) (hr : |r.toInt| ≤ 4096) : (Mlx90640Memory.pixel (brokenMemory r) 1 none .zero 367).Usual ∧
    (Mlx90640Memory.pixel (brokenMemory r) 1 none .zero 367).ambient = 136099541231863 / 3473307198907 := by
  have hwords : ∀ k, k < 64 → eepromOf (brokenMemory r) (0x2400 + k) = BitVec.ofNat 16 (words640 k) := by
    intro k hk
    rw [broken_words r (by omega) (by omega), if_neg (by omega), Nat.add_sub_cancel_left]
  obtain ⟨hpd, -⟩ := broken_pixel r
  have hr' : |(r.toInt : ℝ)| ≤ 4096 := by exact_mod_cast hr
  generalize Mlx90640Memory.pixel (brokenMemory r) 1 none .zero 367 = p at hpd
  generalize eepromOf (brokenMemory r) = E at *
  generalize ht : Ee640.calibration E = t at hpd
  obtain ⟨⟨e1, e2, e3, e4, e5, e6, e7⟩, ⟨g1, g2, -, g4, g5⟩, ⟨c1, c2, c3, c4, c5⟩, -⟩ := header640 E hwords t ht.symm
  have hcorr : correction t 0x1901#16 = 1 := by
    unfold correction
    rw [g5]
    exact div_self (by positivity)
  have hpat : pattern 0x1901#16 = .chess := by decide
  have hV : Datasheet.deltaV t readings640 = 59 / 3168 := by
    unfold Datasheet.deltaV readings640
    rw [e1, e2]; norm_num
  have hT : Datasheet.ambient t readings640 = 136099541231863 / 3473307198907 := by
    unfold Datasheet.ambient
    rw [hV, e4, e5, e6, e7]; unfold readings640; norm_num
  have hP : ptatVoltage t readings640 = 264552805564416 / 20552113603 := by
    unfold ptatVoltage
    rw [hV, e4, e6]; unfold readings640; norm_num
  have hs : Datasheet.supply t 1 readings640 = 59 / 3168 + 3.3 := by
    unfold Datasheet.supply
    rw [hV, e3]; norm_num
  have pA : p.ambient = 136099541231863 / 3473307198907 := by rw [hpd]; exact hT
  have pU : p.surroundings = 136099541231863 / 3473307198907 - 8 := by
    rw [hpd]
    unfold PixelInputs.surroundings PixelInputs.ambient
    simp only [hT, Option.getD_none]
  have pR : p.radiation = (136099541231863 / 3473307198907 + 273.15) ^ 4 := by
    rw [hpd]
    unfold PixelInputs.radiation PixelInputs.surroundings PixelInputs.ambient
    simp only [hT, Option.getD_none]
    unfold Datasheet.reflected
    rw [div_one, sub_sub_cancel]
  have hα : p.sensitivity ≤ 2 ^ 16 := by
    rw [hpd]
    show Datasheet.sensitivity t readings640 .zero 16708 ≤ _
    unfold Datasheet.sensitivity
    rw [hT, g2, g4, c2]; norm_num
  have hgain : |p.table.gain / p.readings.gain| ≤ 2 := by
    rw [hpd]
    show |t.gain / ((readings640.gain : Int) : ℝ)| ≤ 2
    rw [g1]; unfold readings640; norm_num [abs_of_pos]
  have hamb : 0 ≤ p.ambient ∧ p.ambient ≤ 50 := by rw [pA]; norm_num
  have hrad : (-10 + 273.15) ^ 4 ≤ p.radiation ∧ p.radiation ≤ (126 + 273.15) ^ 4 := by rw [pR]; norm_num
  have hsup : |correction p.table p.control * Datasheet.deltaV p.table p.readings| ≤ 0.5 ∧
      |Datasheet.supply p.table (correction p.table p.control) p.readings - 3.3| ≤ 0.5 := by
    rw [hpd]
    show |correction t 0x1901#16 * Datasheet.deltaV t readings640| ≤ 0.5 ∧ |Datasheet.supply t (correction t 0x1901#16) readings640 - 3.3| ≤ 0.5
    rw [hcorr, hs, hV]; norm_num [abs_of_pos]
  have hem : 0.8 ≤ p.emissivity ∧ p.emissivity ≤ 1 := by rw [hpd]; norm_num
  have hpx : UsualPixel p.raw p.offset p.kV p.kTa p.comp := by
    rw [hpd]
    refine ⟨hr', ?_, ?_, ?_, ?_⟩ <;> norm_num [abs_of_pos]
  have hcp : UsualPixel p.readings.compensationPixel (p.table.offsetRefCp p.subpage) (p.table.kVCp p.subpage)
      (p.table.kTaCp p.subpage) ((p.table.apCompCp p.subpage (pattern p.control)).getD 0) := by
    rw [hpd]
    show UsualPixel readings640.compensationPixel (t.offsetRefCp .zero) (t.kVCp .zero) (t.kTaCp .zero) ((t.apCompCp .zero (pattern 0x1901#16)).getD 0)
    rw [hpat, c1, c3, c4, c5]
    unfold readings640
    constructor <;> norm_num [abs_of_pos]
  have hgr : |p.table.tgc.getD 0| ≤ 1 := by
    rw [hpd]
    show |t.tgc.getD 0| ≤ 1
    rw [g4]; norm_num
  have hal : 0 < p.alpha ∧ |p.table.tgc.getD 0 * p.table.alphaCp p.subpage| ≤ p.alpha / 4 := by
    rw [hpd]
    show (0 : ℝ) < 16708 ∧ |t.tgc.getD 0 * t.alphaCp .zero| ≤ 16708 / 4
    rw [g4, c2]; norm_num [abs_of_pos]
  have hka : |p.table.kSTa| ≤ 1 / 256 := by
    rw [hpd]
    show |t.kSTa| ≤ _
    rw [g2]; norm_num [abs_of_pos]
  have hpa : p.alpha = 16708 := by rw [hpd]
  obtain ⟨f1, f2⟩ := flat_contrast hgain hamb hsup.2 hem.1 hpx hcp hgr hal.2 hka (by rw [hpa]; norm_num) hrad.1
  refine ⟨⟨⟨?_, ?_, ?_, hamb, ?_, hrad, hsup, hem, hpx, hcp, hgr, ?_, ⟨?_, hα⟩, hal, hka, ?_⟩, ?_⟩, pA⟩
  · rw [hpd]
    have h5 : |(22 / 4096 : ℝ) * (59 / 3168)| ≤ 1 / 2 := by norm_num [abs_of_pos]
    refine ⟨?_, ?_, ?_, ?_, (show 0 < readings640.tAPtat ∧ readings640.tAPtat ≤ 32767 by decide),
      (show 0 ≤ readings640.tAVbe ∧ readings640.tAVbe ≤ 32767 by decide), ?_⟩
    · show Fits16 (readings640.vddPixel - t.vdd25)
      rw [e2]; unfold readings640 Fits16; decide
    · show t.kVdd ≠ 0
      rw [e1]; decide
    · show t.kTptat ≠ 0
      rw [e5]; norm_num
    · show 0 < t.alphaPtat
      rw [e6]; norm_num
    · show |t.kVptat * Datasheet.deltaV t readings640| ≤ 1 / 2
      rw [e4, hV]; exact h5
  · refine ⟨?_, ?_, hgain⟩
    · rw [hpd]; exact (show readings640.gain ≠ 0 by decide)
    · rw [hpd]; exact (show Fits16 readings640.gain by unfold Fits16; decide)
  · rw [hpd]
    show |ptatVoltage t readings640| ≤ 500 * |t.kTptat|
    rw [hP, e5]; norm_num [abs_of_pos]
  · rw [pU]; norm_num
  · rw [hpd]
    show |((-77 : Int) : ℝ)| * |(0 : ℝ)| + |t.tgc.getD 0| * (|(t.offsetRefCp .zero : ℝ)| * |t.kTaCp .zero|) ≤ 2.2
    rw [g4, c1, c4]; norm_num [abs_of_pos]
  · linarith
  · rw [hpd]
    show |(-105 : ℝ) / 2 ^ 17| ≤ _
    norm_num [abs_of_pos]
  · have r0 : 0 < p.radiation := lt_of_lt_of_le (by norm_num) hrad.1
    have αR0 : 0 < p.sensitivity * p.radiation := mul_pos (by linarith) r0
    unfold contrast at f2
    rw [abs_div, abs_of_pos αR0, div_le_iff₀ αR0] at f2
    linarith

/-- It is measured for subpage 0, and marked as broken. -/
theorem broken_measured (r : Word) : Mlx90640Memory.measured (brokenMemory r) .zero 367 ∧ Mlx90640Memory.broken (brokenMemory r) 367 := by
  have hcontrol : brokenMemory r 0x800D#16 = 0x1901#16 := by unfold brokenMemory; rw [if_neg (by decide), if_neg (by decide)]; decide +kernel
  have hpat : pattern (brokenMemory r 0x800D#16) = .chess := by rw [hcontrol]; decide
  refine ⟨⟨by norm_num, by rw [hpat]; rfl⟩, ?_⟩
  show eepromOf (brokenMemory r) (0x2440 + 367) = 0#16
  rw [broken_words r (by omega) (by omega), if_pos (by norm_num)]

/-- A release build with correctly rounded operations, a healthy camera with this memory: the image shows 39.2 °C for the broken pixel, give or
take 0.61 °C, whatever the pixel reads. -/
example (r : Word) (hr : |r.toInt| ≤ 4096) (dest : List Rounded) (hdest : dest.length = 768) :
    ∃ s' d d' dest', Driver.new640 (F := Rounded) .wrapping (recorded (cameraBus 0x33#8)) (brokenMemory r, []) 0x33#8 = (s', .ok d) ∧
      Driver.generateImageSubpageTo (recordedEnv ⟨.wrapping, 24, cameraBus 0x33#8⟩) .zero dest d = (d', dest', .ok ()) ∧
      ∃ v, dest'[367]? = some v ∧ Within v (136099541231863 / 3473307198907) 0.61 := by
  obtain ⟨s', d, d', dest', hd, hg, -, hem, hrefl⟩ := imaged_640 (brokenMemory r) .zero dest (F := Rounded)
  refine ⟨s', d, d', dest', hd, hg, ?_⟩
  have hst : StaticMemory (recorded (cameraBus 0x33#8)) 0x33#8 Prod.fst := static_recorded (cameraBus_static 0x33#8)
  obtain ⟨hmem, -⟩ := new_static hst hd
  have hmem : d.bus.1 = brokenMemory r := hmem
  have hreg : Ee640.Regular (eepromOf (brokenMemory r)) := by
    refine SameEeprom.regular (E := fun a => if a = 0x25AF then 0#16 else BitVec.ofNat 16 (words640 (a - 0x2400)))
      (fun a h1 h2 => (broken_words r h1 h2).symm) (by decide +kernel)
  have key := (C111_camera_640 .wrapping _ _ s' _ hst d hd hreg [] d .start (fun c hc => nomatch hc) rounded_powers (by norm_num) 1 none dest
    dest' d' 367 (by omega) (by rw [hem]; exact is_lit (by norm_num) (by simpa using value_int (m := 1) (by norm_num)))
    (by rw [hrefl]; exact .none)).1 .zero hg
  rw [show (Prod.fst d.bus : Word → Word) = brokenMemory r from hmem] at key
  obtain ⟨hu, ha⟩ := broken_usual r hr
  obtain ⟨hm, hb⟩ := broken_measured r
  obtain ⟨v, v1, -, v2⟩ := key hm hb (by rw [(broken_pixel r).2]; norm_num) hu
  refine ⟨v, v1, ?_⟩
  rw [← ha]
  exact v2 rfl

end Mlx.Props
