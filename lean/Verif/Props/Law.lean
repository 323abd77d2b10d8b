import Verif.Props.Scene
/-
C94: objects that follow the law of the sensor.
-/
set_option linter.unusedSectionVars false
set_option autoImplicit false
namespace Mlx.Props
open Mlx Mlx.Spec Mlx.Proofs F32Ops

/-- The documented temperature in terms of the first estimate `x`. -/
theorem object_root {v α tar : ℝ} (k : ℝ) (hα : 0 < α) (hn : 0 ≤ v / α + tar) : ∃ x, 0 ≤ x ∧ x ^ 4 = v / α + tar ∧
    Datasheet.object v α tar k = (v / α / (1 + k * (x - 273.15)) + tar) ^ (1 / 4 : ℝ) - 273.15 := by
  refine ⟨(v / α + tar) ^ (1 / 4 : ℝ), by positivity, ?_, ?_⟩
  · rw [← Real.rpow_natCast, ← Real.rpow_mul hn]; norm_num
  · unfold Datasheet.object
    have e1 : α ^ 3 * v + α ^ 4 * tar = α ^ 4 * (v / α + tar) := by field_simp
    have e2 : (α ^ 4 * (v / α + tar)) ^ (1 / 4 : ℝ) = α * (v / α + tar) ^ (1 / 4 : ℝ) := by
      rw [Real.mul_rpow (by positivity) hn]
      congr 1
      rw [← Real.rpow_natCast, ← Real.rpow_mul hα.le]; norm_num
    simp only [e1, e2]
    congr 3
    rw [div_div]
    congr 1
    ring

theorem fourth_root {T : ℝ} (hT : 0 ≤ T) : (T ^ 4) ^ (1 / 4 : ℝ) = T := by
  rw [← Real.rpow_natCast, ← Real.rpow_mul hT]; norm_num

theorem root_fourth {y : ℝ} (hy : 0 ≤ y) : (y ^ (1 / 4 : ℝ)) ^ 4 = y := by
  rw [← Real.rpow_natCast, ← Real.rpow_mul hy]; norm_num

/-- Fourth powers that differ by `e`, where both numbers are at least 9/10 of `T`. -/
theorem fourth_powers {x T e : ℝ} (hT : 0 < T) (hx : 0 ≤ x) (he : |x ^ 4 - T ^ 4| ≤ e) (hs : e ≤ T ^ 4 / 10) :
    |x - T| * (3.4 * T ^ 3) ≤ e := by
  obtain ⟨h1, h2⟩ := abs_le.1 he
  have hx9 : 9 / 10 * T ≤ x := by
    by_contra hc
    have hc := not_le.1 hc
    have : x ^ 4 ≤ (9 / 10 * T) ^ 4 := pow_le_pow_left₀ hx hc.le 4
    have h4 : 0 < T ^ 4 := by positivity
    have e4 : (9 / 10 * T) ^ 4 = 6561 / 10000 * T ^ 4 := by ring
    rw [e4] at this
    linarith
  have hf : x ^ 4 - T ^ 4 = (x - T) * ((x + T) * (x ^ 2 + T ^ 2)) := by ring
  have hS : 3.4 * T ^ 3 ≤ (x + T) * (x ^ 2 + T ^ 2) := by
    have a1 : 19 / 10 * T ≤ x + T := by linarith
    have a2 : 181 / 100 * T ^ 2 ≤ x ^ 2 + T ^ 2 := by nlinarith
    have : 19 / 10 * T * (181 / 100 * T ^ 2) ≤ (x + T) * (x ^ 2 + T ^ 2) := by gcongr
    have e3 : 19 / 10 * T * (181 / 100 * T ^ 2) = 3439 / 1000 * T ^ 3 := by ring
    rw [e3] at this
    have : 0 < T ^ 3 := by positivity
    linarith
  refine le_trans ?_ he
  rw [hf, abs_mul, abs_of_nonneg (le_trans (by positivity) hS)]
  exact mul_le_mul_of_nonneg_left hS (abs_nonneg _)

/-- The error of the documented temperature for an object at `T` kelvins that follows the law, in terms of the difference
`u` between its radiation and that of the surroundings. -/
theorem law_error {v α tar k T D : ℝ} (hα : 0 < α) (hT : 0 < T)
    (hlaw : v = α * (1 + k * (T - 273.15)) * (T ^ 4 - tar))
    (h1 : |k * (T - 273.15) * (T ^ 4 - tar)| ≤ T ^ 4 / 10) (hD : 0 < D)
    (hDx : ∀ x, |x - T| * (3.4 * T ^ 3) ≤ |k * (T - 273.15) * (T ^ 4 - tar)| → D ≤ 1 + k * (x - 273.15))
    (h2 : |k * (T ^ 4 - tar)| * (|k * (T - 273.15) * (T ^ 4 - tar)| / (3.4 * T ^ 3)) / D ≤ T ^ 4 / 10) :
    |Datasheet.object v α tar k - (T - 273.15)| ≤
      |k * (T ^ 4 - tar)| * (|k * (T - 273.15) * (T ^ 4 - tar)| / (3.4 * T ^ 3)) / D / (3.4 * T ^ 3) := by
  have hT4 : 0 < T ^ 4 := by positivity
  have hT3 : 0 < 3.4 * T ^ 3 := by positivity
  have hw : v / α = (1 + k * (T - 273.15)) * (T ^ 4 - tar) := by rw [hlaw]; field_simp
  have hsum : v / α + tar = T ^ 4 + k * (T - 273.15) * (T ^ 4 - tar) := by rw [hw]; ring
  have hn : 0 ≤ v / α + tar := by
    rw [hsum]
    have := (abs_le.1 h1).1
    linarith
  obtain ⟨x, x0, x4, ex⟩ := object_root k hα hn
  have hx : |x - T| * (3.4 * T ^ 3) ≤ |k * (T - 273.15) * (T ^ 4 - tar)| := by
    refine fourth_powers hT x0 (le_of_eq ?_) h1
    rw [x4, hsum]
    congr 1
    ring
  have hx' : |x - T| ≤ |k * (T - 273.15) * (T ^ 4 - tar)| / (3.4 * T ^ 3) := (le_div_iff₀ hT3).2 hx
  have hDD := hDx x hx
  have hpos : 0 < 1 + k * (x - 273.15) := lt_of_lt_of_le hD hDD
  rw [ex]
  set E := |k * (T ^ 4 - tar)| * (|k * (T - 273.15) * (T ^ 4 - tar)| / (3.4 * T ^ 3)) / D with hE
  have hC : v / α / (1 + k * (x - 273.15)) + tar = T ^ 4 + k * (T ^ 4 - tar) * (T - x) / (1 + k * (x - 273.15)) := by
    rw [hw]
    field_simp
    ring
  have habs : |k * (T ^ 4 - tar) * (T - x) / (1 + k * (x - 273.15))| ≤ E := by
    rw [abs_div, abs_mul, abs_of_pos hpos, abs_sub_comm T x, hE]
    gcongr
  have hCn : 0 ≤ v / α / (1 + k * (x - 273.15)) + tar := by
    rw [hC]
    have := (abs_le.1 (habs.trans h2)).1
    linarith
  have hroot : |(v / α / (1 + k * (x - 273.15)) + tar) ^ (1 / 4 : ℝ) - T| * (3.4 * T ^ 3) ≤ E := by
    refine fourth_powers hT (by positivity) ?_ h2
    rw [root_fourth hCn, hC, add_sub_cancel_left]
    exact habs
  have e : ∀ y : ℝ, y - 273.15 - (T - 273.15) = y - T := fun y => by ring
  rw [e]
  exact (le_div_iff₀ hT3).2 hroot

/-- The cases without error. -/
theorem law_exact {v α tar k T : ℝ} (hα : 0 < α) (hT : 0 ≤ T) (hlaw : v = α * (1 + k * (T - 273.15)) * (T ^ 4 - tar))
    (h : k = 0 ∨ T = 273.15 ∨ T ^ 4 = tar) : Datasheet.object v α tar k = T - 273.15 := by
  have hw : v / α = (1 + k * (T - 273.15)) * (T ^ 4 - tar) := by rw [hlaw]; field_simp
  have hsum : v / α + tar = T ^ 4 := by
    rw [hw]
    rcases h with h | h | h
    · rw [h]; ring
    · rw [h]; ring
    · rw [h]; ring
  obtain ⟨x, x0, x4, ex⟩ := object_root (tar := tar) k hα (by rw [hsum]; positivity)
  have hx : x = T := by
    rw [hsum] at x4
    rw [← fourth_root x0, x4, fourth_root hT]
  rw [ex, hx]
  have hfin : v / α / (1 + k * (T - 273.15)) + tar = T ^ 4 := by
    rcases h with h | h | h
    · rw [h, zero_mul, add_zero, div_one]; exact hsum
    · rw [h, sub_self, mul_zero, add_zero, div_one, ← h]; exact hsum
    · have : v / α = 0 := by linarith
      rw [this, zero_div, zero_add, h]
  rw [hfin, fourth_root hT]

/-- The numbers for objects between 0 and 100 °C. -/
theorem law_bound {v α tar k T : ℝ} (hα : 0 < α) (hT : 273.15 ≤ T) (hT' : T ≤ 373.15)
    (htar : 263.15 ^ 4 ≤ tar) (htar' : tar ≤ 333.15 ^ 4) (hk : |k| ≤ 0.00085)
    (hlaw : v = α * (1 + k * (T - 273.15)) * (T ^ 4 - tar)) : |Datasheet.object v α tar k - (T - 273.15)| ≤ 0.6 := by
  have hTp : 0 < T := by linarith
  have hT3 : 0 < T ^ 3 := by positivity
  set y := T - 273.15 with hy
  have hy0 : 0 ≤ y := by linarith
  -- the radiation of the object relative to the surroundings, as a number of degrees
  have hu : ∃ b, 0 ≤ b ∧ |T ^ 4 - tar| ≤ b * T ^ 3 ∧ b * y ≤ 28100 ∧ b * b * y ≤ 7900000 := by
    have c3 : (273.15 : ℝ) ^ 3 ≤ T ^ 3 := by gcongr
    rcases le_total tar (T ^ 4) with h | h
    · refine ⟨281, by norm_num, ?_, by linarith, by linarith⟩
      rw [abs_of_nonneg (by linarith)]
      have c3' : T ^ 3 ≤ (373.15 : ℝ) ^ 3 := by gcongr
      have e4 : T ^ 4 = T * T ^ 3 := by ring
      have : T * T ^ 3 ≤ 373.15 * T ^ 3 := by gcongr
      rw [e4]
      norm_num at htar c3' ⊢
      nlinarith
    · have hT2 : T ≤ 333.15 := by
        by_contra hc
        have : (333.15 : ℝ) ^ 4 < T ^ 4 := by
          have := not_le.1 hc
          gcongr
        linarith
      refine ⟨332, by norm_num, ?_, by linarith, by linarith⟩
      rw [abs_of_nonpos (by linarith)]
      have e4 : T ^ 4 = T * T ^ 3 := by ring
      have : 273.15 * T ^ 3 ≤ T * T ^ 3 := by gcongr
      rw [e4]
      norm_num at htar' c3 ⊢
      linarith
  obtain ⟨b, hb0, hb1, hb2, hb3⟩ := hu
  have hku : |k * (T ^ 4 - tar)| ≤ 0.00085 * (b * T ^ 3) := by
    rw [abs_mul]; gcongr
  have hkyu : |k * y * (T ^ 4 - tar)| ≤ 0.00085 * (b * y) * T ^ 3 := by
    rw [abs_mul, abs_mul, abs_of_nonneg hy0]
    have : |k| * y * |T ^ 4 - tar| ≤ 0.00085 * y * (b * T ^ 3) := by gcongr
    linarith
  have h1 : |k * y * (T ^ 4 - tar)| ≤ T ^ 4 / 10 := by
    refine hkyu.trans ?_
    have : 0.00085 * (b * y) * T ^ 3 ≤ 0.00085 * 28100 * T ^ 3 := by gcongr
    have e4 : T ^ 4 = T * T ^ 3 := by ring
    have : 273.15 * T ^ 3 ≤ T * T ^ 3 := by gcongr
    rw [e4]
    linarith
  have hq : |k * y * (T ^ 4 - tar)| / (3.4 * T ^ 3) ≤ 0.00085 * (b * y) / 3.4 := by
    rw [div_le_div_iff₀ (by positivity) (by norm_num)]
    linarith
  have hfin : |k * (T ^ 4 - tar)| * (|k * y * (T ^ 4 - tar)| / (3.4 * T ^ 3)) / 0.9 ≤
      0.00085 * 0.00085 * 7900000 / 3.4 / 0.9 * T ^ 3 := by
    have : |k * (T ^ 4 - tar)| * (|k * y * (T ^ 4 - tar)| / (3.4 * T ^ 3)) ≤ 0.00085 * (b * T ^ 3) * (0.00085 * (b * y) / 3.4) := by
      gcongr
    have e : 0.00085 * (b * T ^ 3) * (0.00085 * (b * y) / 3.4) = 0.00085 * 0.00085 * (b * b * y) / 3.4 * T ^ 3 := by ring
    have : 0.00085 * 0.00085 * (b * b * y) / 3.4 * T ^ 3 ≤ 0.00085 * 0.00085 * 7900000 / 3.4 * T ^ 3 := by gcongr
    rw [div_le_iff₀ (by norm_num)]
    calc _ ≤ 0.00085 * 0.00085 * 7900000 / 3.4 * T ^ 3 := by linarith
      _ = _ := by ring
  refine (law_error (D := 0.9) hα hTp hlaw h1 (by norm_num) ?_ ?_).trans ?_
  · intro x hx
    have hx' : |x - T| ≤ 0.00085 * (b * y) / 3.4 := ((le_div_iff₀ (by positivity)).2 hx).trans hq
    have hx2 : |x - T| ≤ 8 := by
      refine hx'.trans ?_
      rw [div_le_iff₀ (by norm_num)]
      norm_num at hb2 ⊢
      linarith
    obtain ⟨x1, x2⟩ := abs_le.1 hx2
    obtain ⟨k1, k2⟩ := abs_le.1 hk
    have : |k * (x - 273.15)| ≤ 0.00085 * 109 := by
      rw [abs_mul]
      have : |x - 273.15| ≤ 109 := abs_le.2 ⟨by linarith, by linarith⟩
      gcongr
    have := (abs_le.1 this).1
    linarith
  · refine hfin.trans ?_
    have e4 : T ^ 4 = T * T ^ 3 := by ring
    have : 273.15 * T ^ 3 ≤ T * T ^ 3 := by gcongr
    rw [e4]
    linarith
  · rw [div_le_iff₀ (by positivity)]
    refine hfin.trans ?_
    linarith

/-- **C94.** An object of temperature `To` (in °C) that follows the law of the sensor - a signal of
`sensitivity * (1 + Ks_To * To) * ((To + 273.15)⁴ - T_a-r)` - is measured without any error if `Ks_To` is zero, if it is at 0 °C, or if it
radiates like its surroundings. In general the crate, which evaluates the slope at a first estimate, has an error; for objects
between 0 and 100 °C, effective surroundings between -10 and 60 °C and slopes of at most 0.00085 per degree it is at most
0.6 degrees. -/
theorem C94_objects_following_the_law {ε : Type} (m : Mode) (c : Calib ℝ) (em rc : ℝ) (r : RamData)
    (hr : Fits16 (r.vddPixel - c.vdd25)) (tR : Option ℝ) (px : List Byte) (s : Subpage) (a : AccessPattern)
    (valid : List Bool) (dest out : List ℝ) (tA : ℝ) (i : Nat) (hv : valid[i]? = some true) (hd : i < dest.length) (b1 b2 : Byte)
    (h1 : px[2 * i]? = some b1) (h2 : px[2 * i + 1]? = some b2)
    (offset : Int) (hof : (c.offsetRef s)[i]? = some offset) (kV kTa alpha : ℝ)
    (hkv : (c.kV s)[i]? = some kV) (hkt : (c.kTa s)[i]? = some kTa) (hal : (c.alpha s)[i]? = some alpha)
    (comp : Option ℝ) (hap : (c.apComp a)[i]? = some comp) (kSTo : ℝ) (hks : c.kSTo[c.cam.basicRange]? = some kSTo)
    (h : rawPixelsToTemperatures (ε := ε) m c em tR rc px r s a valid dest = .ok (tA, out)) (To : ℝ) :
    let signal := Datasheet.compensatedSignal c rc em r s a (be16 b1 b2).toInt offset kV kTa (comp.getD 0)
    let sensitivity := Datasheet.sensitivity c r s alpha
    let tAmb := Datasheet.ambient c r
    let radiation := Datasheet.reflected tAmb (tR.getD (tAmb - c.cam.selfHeating)) em
    0 < sensitivity → signal = sensitivity * (1 + kSTo * To) * ((To + 273.15) ^ 4 - radiation) →
    ∃ t, out[i]? = some t ∧
      (-273.15 ≤ To → kSTo = 0 ∨ To = 0 ∨ (To + 273.15) ^ 4 = radiation → t = To) ∧
      (0 ≤ To → To ≤ 100 → (-10 + 273.15) ^ 4 ≤ radiation → radiation ≤ (60 + 273.15) ^ 4 → |kSTo| ≤ 0.00085 → |t - To| ≤ 0.6) := by
  intro signal sensitivity tAmb radiation hα hlaw
  obtain ⟨ha, ht⟩ := (C55_documented_formulas (ε := ε) m c em rc tA tR px r s a valid dest out hr i hv hd b1 b2 h1 h2 offset hof kV kTa
    alpha hkv hkt hal comp hap kSTo hks).2 h
  rw [ha] at ht
  have e : To + 273.15 - 273.15 = To := by ring
  have hlaw' : signal = sensitivity * (1 + kSTo * (To + 273.15 - 273.15)) * ((To + 273.15) ^ 4 - radiation) := by rw [e]; exact hlaw
  refine ⟨_, ht, fun h0 hcase => ?_, fun t0 t1 r0 r1 hk => ?_⟩
  · have := law_exact hα (by linarith) hlaw' (hcase.imp id (Or.imp (fun h => by rw [h]; norm_num) id))
    rw [e] at this
    exact this
  · have := law_bound hα (by linarith) (by linarith) (le_trans (by norm_num) r0) (r1.trans (by norm_num)) hk hlaw'
    rw [e] at this
    exact this

set_option maxHeartbeats 1000000 in
/-- The hypotheses are met: in the frame of the datasheet's worked example pixel 367 has a signal as that of an object between 40 and
100 °C that follows the law, in surroundings that count as 39 °C, with a slope of -0.0008. -/
example (t : Calib ℝ) (ht : t = Ee640.calibration (eepromWord example640)) :
    let signal := Datasheet.compensatedSignal t 1 1 readings640 .zero .chess 609 (-75) (4 / 2 ^ 3) (84 / 2 ^ 14) 0
    let sensitivity := Datasheet.sensitivity t readings640 .zero (17348 / 2 ^ 37)
    let tAmb := Datasheet.ambient t readings640
    let radiation := Datasheet.reflected tAmb (tAmb - 8) 1
    Fits16 (readings640.vddPixel - t.vdd25) ∧ 0 < sensitivity ∧ (-10 + 273.15) ^ 4 ≤ radiation ∧ radiation ≤ (60 + 273.15) ^ 4 ∧
      |(-105 / 2 ^ 17 : ℝ)| ≤ 0.00085 ∧
      ∃ To, 40 ≤ To ∧ To ≤ 100 ∧ signal = sensitivity * (1 + -105 / 2 ^ 17 * To) * ((To + 273.15) ^ 4 - radiation) := by
  obtain ⟨⟨e1, e2, e3, e4, e5, e6, e7⟩, ⟨g1, g2, -, g4, -⟩, ⟨c1, c2, c3, c4, c5⟩, -⟩ := parameters640 t ht
  intro signal sensitivity tAmb radiation
  have hV : Datasheet.deltaV t readings640 = 59 / 3168 := by
    unfold Datasheet.deltaV readings640
    rw [e1, e2]; norm_num
  have hT : tAmb = 136099541231863 / 3473307198907 := by
    show Datasheet.ambient t readings640 = _
    unfold Datasheet.ambient
    rw [hV, e4, e5, e6, e7]; unfold readings640; norm_num
  have hs : Datasheet.supply t 1 readings640 = 59 / 3168 + 3.3 := by
    unfold Datasheet.supply
    rw [hV, e3]; norm_num
  have hS : signal = 609 * (6383 / 6881) + (5174955840091582878902627 / 9845308323733540962304 - 512 * (6383 / 6881)) := by
    show Datasheet.compensatedSignal t 1 1 readings640 .zero .chess 609 (-75) (4 / 2 ^ 3) (84 / 2 ^ 14) 0 = _
    unfold Datasheet.compensatedSignal Datasheet.signal
    rw [show Datasheet.ambient t readings640 = _ from hT, hs, g1, g4, c1, c3, c4, c5]
    unfold readings640
    simp only [Option.getD_some, Option.getD_none]
    push_cast
    ring_nf
  have hα : sensitivity = 1814222945991819903 / 15275766608145338312163328 := by
    show Datasheet.sensitivity t readings640 .zero (17348 / 2 ^ 37) = _
    unfold Datasheet.sensitivity
    rw [show Datasheet.ambient t readings640 = _ from hT, g2, g4, c2]; norm_num
  have hR : radiation = (136099541231863 / 3473307198907 + 273.15) ^ 4 := by
    show Datasheet.reflected tAmb (tAmb - 8) 1 = _
    unfold Datasheet.reflected
    rw [hT, div_one, sub_sub_cancel]
  refine ⟨by rw [e2]; unfold readings640; decide, by rw [hα]; norm_num, by rw [hR]; norm_num, by rw [hR]; norm_num, by norm_num [abs_of_neg], ?_⟩
  have hcont : ContinuousOn (fun To : ℝ => sensitivity * (1 + -105 / 2 ^ 17 * To) * ((To + 273.15) ^ 4 - radiation)) (Set.Icc 40 100) := by
    fun_prop
  obtain ⟨To, ⟨h1, h2⟩, h3⟩ := intermediate_value_Icc (by norm_num : (40 : ℝ) ≤ 100) hcont
    (show signal ∈ Set.Icc _ _ from ⟨by rw [hS, hα, hR]; norm_num, by rw [hS, hα, hR]; norm_num⟩)
  exact ⟨To, h1, h2, h3.symm⟩

end Mlx.Props
