import Verif.Props.Usual
/-
A concrete MLX90641: the EEPROM of the datasheet's worked example and one frame. The theorems about accuracy (C70, C71, C74, C75, C94,
C97 and what follows from them) say something about it.
-/
set_option linter.unusedSectionVars false
set_option autoImplicit false
namespace Mlx.Props
open Mlx Mlx.Spec Mlx.Proofs F32Ops

/-- The memory of the example, with a gain of 6881, a compensation pixel that reads -54 and a pixel 100 of subpage 0 that reads -100. -/
def memory641 (a : Word) : Word :=
  if a = 0x04C4#16 then 0xFF9C#16 else if a = 0x0588#16 then 0xFFCA#16 else if a = 0x058A#16 then 0x1AE1#16
  else if a = 0x8000#16 then 0x0008#16 else exampleMemory words641 a

theorem memory641_eeprom {a : Nat} (h1 : 0x2400 ≤ a) (h2 : a < 0x2740) :
    eepromOf memory641 a = BitVec.ofNat 16 (words641 (a - 0x2400)) := by
  rw [← exampleMemory_eeprom words641 h1 h2]
  unfold eepromOf memory641
  have hne : ∀ k : Nat, k < 0x2400 ∨ 0x2740 ≤ k ∧ k < 0x10000 → BitVec.ofNat 16 a ≠ BitVec.ofNat 16 k := by
    intro k hk he
    have := congrArg BitVec.toNat he
    rw [BitVec.toNat_ofNat, BitVec.toNat_ofNat, Nat.mod_eq_of_lt (by omega), Nat.mod_eq_of_lt (by omega)] at this
    omega
  rw [if_neg (hne 0x04C4 (by omega)), if_neg (hne 0x0588 (by omega)), if_neg (hne 0x058A (by omega)),
    if_neg (hne 0x8000 (by omega))]

/-- The EEPROM holds the values of the example. -/
theorem memory641_holds : ∀ a ∈ Ee641.readAddresses 192, WithinOneBit (eepromOf memory641 a) (codeword (values641 a)) := by
  intro a ha
  obtain ⟨h1, h2, _⟩ := readAddresses_bounds ha
  have := example641_holds a ha
  rw [memory641_eeprom (by omega) (by omega)]
  have e := eepromWord_dump words641 (a - 0x2400) (by omega)
  rw [show 0x2400 + (a - 0x2400) = a by omega] at e
  rw [← e]
  exact this

theorem moderate641 : ModerateScales values641 := by unfold ModerateScales; decide +kernel

/-- The parameters of the example. -/
theorem parameters641 (t : Calib ℝ) (ht : t = Ee641.calibration values641) :
    (t.kVdd = -3136 ∧ t.vdd25 = -13568 ∧ t.vdd0 = 3.3 ∧ t.kVptat = 23 / 4096 ∧ t.kTptat = 342 / 8 ∧ t.alphaPtat = 9 ∧
      t.vptat25 = 12280) ∧
    (t.gain = 9972 ∧ t.kSTa = -9 / 4096 ∧ t.tgc = some 0 ∧ t.resolution = .eighteen ∧ t.emissivity = some (243 / 256)) ∧
    (t.offsetRefCp .zero = -119 ∧ t.kVCp .zero = 20 / 64 ∧ t.kTaCp .zero = 19 / 8192 ∧ t.apCompCp .zero .chess = none) ∧
    Ee641.offset values641 .zero 100 = -673 ∧ Ee641.alpha values641 100 = 1489 / 2 ^ 32 ∧
    Ee641.kV values641 100 = 333 / 1024 ∧ Ee641.kTa values641 100 = 813 / 262144 := by
  subst ht
  have hf : Ee641.isFailed (Ee641.widen values641) 100 = false := by decide +kernel
  refine ⟨⟨?_, ?_, rfl, ?_, ?_, ?_, ?_⟩, ⟨?_, ?_, ?_, ?_, ?_⟩, ⟨?_, ?_, ?_, rfl⟩, ?_, ?_, ?_, ?_⟩
  · show (values641 0x2427).toInt * 2 ^ 5 = _
    decide +kernel
  · show (values641 0x2426).toInt * 2 ^ 5 = _
    decide +kernel
  · show ((values641 0x242B).toInt : ℝ) / 2 ^ 12 = _
    rw [show (values641 0x242B).toInt = 23 by decide +kernel]; norm_num
  · show ((values641 0x242A).toInt : ℝ) / 2 ^ 3 = _
    rw [show (values641 0x242A).toInt = 342 by decide +kernel]; norm_num
  · show ((values641 0x242C).toNat : ℝ) / 2 ^ 7 = _
    rw [show (values641 0x242C).toNat = 1152 by decide +kernel]; norm_num
  · show 32 * ((values641 0x2428).toNat : ℝ) + (values641 0x2429).toNat = _
    rw [show (values641 0x2428).toNat = 383 by decide +kernel, show (values641 0x2429).toNat = 24 by decide +kernel]; norm_num
  · show 32 * ((values641 0x2424).toNat : ℝ) + (values641 0x2425).toNat = _
    rw [show (values641 0x2424).toNat = 311 by decide +kernel, show (values641 0x2425).toNat = 20 by decide +kernel]; norm_num
  · show ((values641 0x2422).toInt : ℝ) / 2 ^ 15 = _
    rw [show (values641 0x2422).toInt = -72 by decide +kernel]; norm_num
  · show some ((signedAt (Ee641.widen values641 0x2433) 0 9 : ℝ) / 2 ^ 6) = _
    rw [show signedAt (Ee641.widen values641 0x2433) 0 9 = 0 by decide +kernel]; norm_num
  · show CtrlField.resolution.decode (bitsAt (Ee641.widen values641 0x2433) 9 2) = _
    decide +kernel
  · show some (((values641 0x2423).toInt : ℝ) / 2 ^ 9) = _
    rw [show (values641 0x2423).toInt = 486 by decide +kernel]; norm_num
  · decide +kernel
  · show (signedAt (Ee641.widen values641 0x2432) 0 6 : ℝ) / 2 ^ bitsAt (Ee641.widen values641 0x2432) 6 5 = _
    rw [show signedAt (Ee641.widen values641 0x2432) 0 6 = 20 by decide +kernel,
      show bitsAt (Ee641.widen values641 0x2432) 6 5 = 6 by decide +kernel]; norm_num
  · show (signedAt (Ee641.widen values641 0x2431) 0 6 : ℝ) / 2 ^ bitsAt (Ee641.widen values641 0x2431) 6 5 = _
    rw [show signedAt (Ee641.widen values641 0x2431) 0 6 = 19 by decide +kernel,
      show bitsAt (Ee641.widen values641 0x2431) 6 5 = 13 by decide +kernel]; norm_num
  · decide +kernel
  · unfold Ee641.alpha
    rw [hf, show Ee641.alphaRaw (Ee641.widen values641) 100 = 2047 by decide +kernel,
      show (values641 (0x241C + Ee641.rowPair 100)).toNat = 1489 by decide +kernel,
      show Ee641.referenceExp (Ee641.widen values641) (Ee641.rowPair 100) = 32 by decide +kernel]
    norm_num
  · unfold Ee641.kV
    rw [hf, show Ee641.kVRaw (Ee641.widen values641) 100 = 0 by decide +kernel,
      show (values641 0x2417).toInt = 666 by decide +kernel,
      show bitsAt (Ee641.widen values641 0x2418) 5 6 = 11 by decide +kernel]
    norm_num
  · unfold Ee641.kTa
    rw [hf, show Ee641.kTaRaw (Ee641.widen values641) 100 = 6 by decide +kernel,
      show (values641 0x2415).toInt = 765 by decide +kernel,
      show bitsAt (Ee641.widen values641 0x2416) 0 5 = 3 by decide +kernel,
      show bitsAt (Ee641.widen values641 0x2416) 5 6 = 18 by decide +kernel]
    norm_num

/-- The inputs of pixel 100, with the emissivity that the EEPROM has. -/
theorem scene641_pixel : Mlx90641Memory.pixel memory641 values641 (243 / 256) none .zero 100 =
    { table := Ee641.calibration values641, control := 0x1901#16, readings := readings640, emissivity := 243 / 256,
      given := none, heating := 5, subpage := .zero, raw := -100, offset := -673, alpha := 1489 / 2 ^ 32, kV := 333 / 1024,
      kTa := 813 / 262144, comp := 0, kSTo := -734 / 2 ^ 20 } := by
  have hcontrol : memory641 0x800D#16 = 0x1901#16 := by decide +kernel
  have hread : Mlx90641Memory.readings memory641 .zero = readings640 := by decide +kernel
  have hraw : (memory641 (Mlx90641Memory.address .zero 100)).toInt = -100 := by decide +kernel
  have hk : (values641 0x2437).toInt = -734 := by decide +kernel
  have hk2 : (values641 0x2434).toNat = 20 := by decide +kernel
  obtain ⟨-, -, -, q1, q2, q3, q4⟩ := parameters641 _ rfl
  unfold Mlx90641Memory.pixel
  rw [hcontrol, hread, hraw, hk, hk2, q1, q2, q3, q4]
  norm_num

set_option maxHeartbeats 1000000 in
/-- This pixel is a usual measurement, and not just so; and it looks at an object between 40 and 60 °C that follows the law. -/
theorem usual641 : let p := Mlx90641Memory.pixel memory641 values641 (243 / 256) none .zero 100
    p.Usual ∧ |p.signal| + 50 ≤ p.sensitivity * p.radiation / 2 ∧ |p.table.gain / p.readings.gain| ≤ 1.45 ∧
    (1.3 ≤ p.table.gain / p.readings.gain ∧ p.signal ≤ 560 ∧ p.sensitivity * p.radiation ≤ 3210 ∧ 550 ≤ p.signal) ∧
    ∃ To, 40 ≤ To ∧ To ≤ 60 ∧ p.Sees To := by
  intro p
  have hpd : p = _ := scene641_pixel
  generalize p = p at hpd ⊢
  have hplaus := plausible641
  generalize ht : Ee641.calibration values641 = t at hpd hplaus
  obtain ⟨⟨e1, e2, e3, e4, e5, e6, e7⟩, ⟨g1, g2, g4, g5, -⟩, ⟨c1, c3, c4, c5⟩, -⟩ := parameters641 t ht.symm
  have hcorr : correction t 0x1901#16 = 1 := by
    unfold correction
    rw [g5]
    exact div_self (by positivity)
  have hpat : pattern 0x1901#16 = .chess := by decide
  have hV : Datasheet.deltaV t readings640 = -453 / 3136 := by
    unfold Datasheet.deltaV readings640
    rw [e1, e2]; norm_num
  have hT : Datasheet.ambient t readings640 = 2992078989109151 / 76466341499607 := by
    unfold Datasheet.ambient
    rw [hV, e4, e5, e6, e7]; unfold readings640; norm_num
  have hP : ptatVoltage t readings640 = 5761372210069504 / 447171587717 := by
    unfold ptatVoltage
    rw [hV, e4, e6]; unfold readings640; norm_num
  have hs : Datasheet.supply t 1 readings640 = -453 / 3136 + 3.3 := by
    unfold Datasheet.supply
    rw [hV, e3]; norm_num
  have hS : Datasheet.compensatedSignal t 1 (243 / 256) readings640 .zero .chess (-100) (-673) (333 / 1024) (813 / 262144) 0 =
      345758210140631799221756160035 / 625654882006597002621616128 := by
    unfold Datasheet.compensatedSignal Datasheet.signal
    rw [hT, hs, g1, g4, c1, c3, c4, c5]
    unfold readings640
    simp only [Option.getD_some, Option.getD_none]
    push_cast
    norm_num
  have hα : Datasheet.sensitivity t readings640 .zero (1489 / 2 ^ 32) = 1569045903537615339 / 4670868422906021857460224 := by
    unfold Datasheet.sensitivity
    rw [hT, g2, g4]; norm_num
  have pS : p.signal = 345758210140631799221756160035 / 625654882006597002621616128 := by
    rw [hpd]
    unfold PixelInputs.signal pixelSignal
    simp only [hcorr, hpat]
    exact hS
  have pα : p.sensitivity = 1569045903537615339 / 4670868422906021857460224 := by rw [hpd]; exact hα
  have pA : p.ambient = 2992078989109151 / 76466341499607 := by rw [hpd]; exact hT
  have pU : p.surroundings = 2992078989109151 / 76466341499607 - 5 := by
    rw [hpd]
    unfold PixelInputs.surroundings PixelInputs.ambient
    simp only [hT, Option.getD_none]
  have pR : 9541647260 ≤ p.radiation ∧ p.radiation ≤ 9541647261 := by
    have : p.radiation = Datasheet.reflected p.ambient p.surroundings (243 / 256) := by rw [hpd]; rfl
    rw [this, pA, pU]
    unfold Datasheet.reflected
    norm_num
  have hg : |t.gain / ((readings640.gain : Int) : ℝ)| ≤ 1.45 := by
    rw [g1]; unfold readings640; norm_num [abs_of_pos]
  have hg2 : 1.3 ≤ t.gain / ((readings640.gain : Int) : ℝ) := by
    rw [g1]; unfold readings640; norm_num
  have hk : p.kSTo = -734 / 2 ^ 20 := by rw [hpd]
  generalize hR : p.radiation = R at pR ⊢
  obtain ⟨R0, R1⟩ := pR
  refine ⟨⟨⟨?_, ?_, ?_, ?_, ?_, ?_, ?_, ?_, ?_, ?_, ?_, ?_, ?_, ?_, ?_, ?_⟩, ?_⟩, ?_, by rw [hpd]; exact hg, ⟨by rw [hpd]; exact hg2, by rw [pS]; norm_num, by rw [pα]; norm_num; linarith, by rw [pS]; norm_num⟩, ?_⟩
  · rw [hpd]; exact hplaus
  · rw [hpd]
    refine ⟨show readings640.gain ≠ 0 by decide, show Fits16 readings640.gain by unfold Fits16; decide, ?_⟩
    exact hg.trans (by norm_num)
  · rw [hpd]
    show |ptatVoltage t readings640| ≤ 500 * |t.kTptat|
    rw [hP, e5]; norm_num [abs_of_pos]
  · rw [pA]; norm_num
  · rw [pU]; norm_num
  · rw [hR]; norm_num; constructor <;> linarith
  · rw [hpd]
    show |correction t 0x1901#16 * Datasheet.deltaV t readings640| ≤ 0.5 ∧ |Datasheet.supply t (correction t 0x1901#16) readings640 - 3.3| ≤ 0.5
    rw [hcorr, hs, hV]; norm_num [abs_of_pos]
  · rw [hpd]; norm_num
  · rw [hpd]
    constructor <;> norm_num [abs_of_pos]
  · rw [hpd]
    show UsualPixel readings640.compensationPixel (t.offsetRefCp .zero) (t.kVCp .zero) (t.kTaCp .zero) ((t.apCompCp .zero (pattern 0x1901#16)).getD 0)
    rw [hpat, c1, c3, c4, c5]
    unfold readings640
    constructor <;> norm_num [abs_of_pos]
  · rw [hpd]
    show |t.tgc.getD 0| ≤ 1
    rw [g4]; norm_num
  · rw [hpd]
    show |((-673 : Int) : ℝ)| * |(813 : ℝ) / 262144| + |t.tgc.getD 0| * (|(t.offsetRefCp .zero : ℝ)| * |t.kTaCp .zero|) ≤ 2.2
    rw [g4, c1, c4]; norm_num [abs_of_pos]
  · rw [pα]; norm_num
  · rw [hpd]
    show (0 : ℝ) < 1489 / 2 ^ 32 ∧ |t.tgc.getD 0 * t.alphaCp .zero| ≤ 1489 / 2 ^ 32 / 4
    rw [g4]; norm_num
  · rw [hpd]
    show |t.kSTa| ≤ _
    rw [g2]; norm_num [abs_of_pos]
  · rw [hk]; norm_num [abs_of_pos]
  · rw [pS, pα, hR]; norm_num [abs_of_pos]; linarith
  · rw [pS, pα]; norm_num [abs_of_pos]; linarith
  · have hcont : ContinuousOn (fun To : ℝ => p.sensitivity * (1 + -734 / 2 ^ 20 * To) * ((To + 273.15) ^ 4 - R)) (Set.Icc 40 60) := by
      fun_prop
    obtain ⟨To, ⟨h1, h2⟩, h3⟩ := intermediate_value_Icc (by norm_num : (40 : ℝ) ≤ 60) hcont
      (show p.signal ∈ Set.Icc _ _ from ⟨by rw [pS, pα]; norm_num; linarith, by rw [pS, pα]; norm_num; linarith⟩)
    exact ⟨To, h1, h2, by rw [pα]; norm_num, by rw [hk, hR]; exact h3.symm, ⟨by linarith, by linarith⟩,
      ⟨by rw [hR]; norm_num; linarith, by rw [hR]; norm_num; linarith⟩, by rw [hk]; norm_num [abs_of_neg]⟩

end Mlx.Props
