import Verif.Proofs.Radiation
import Verif.Props.Access
import Verif.Props.Signal
import Verif.Spec.Object
/-
C74: how accurate binary32 arithmetic is for the temperatures of the pixels.
-/
set_option linter.unusedSectionVars false
set_option autoImplicit false
namespace Mlx.Props
open Mlx Mlx.Spec Mlx.Proofs F32Ops
variable {F ε : Type} [F32Ops F] [Binary32 F]

/-- Sizes of the parameters that the sensitivity depends on. -/
structure Tempered (t : Calib ℝ) : Prop where
  alpha : ∀ s, ∀ x ∈ t.alpha s, |x| ≤ 2 ^ 20
  alphaCp : ∀ s, |t.tgc.getD 0 * t.alphaCp s| ≤ 2 ^ 20
  kSTa : |t.kSTa| ≤ 1
  heating : ∃ n : Nat, n ≤ 16 ∧ t.cam.selfHeating = n

theorem ambientError_nonneg (t : Calib ℝ) (r : RamData) : (|Datasheet.ambient t r| + 50) / 2 ^ 20 ≤ ambientError t r := by
  unfold ambientError
  have : 0 ≤ |ptatVoltage t r| / |t.kTptat| := by positivity
  gcongr
  linarith

/-- An element of a thermal image, in terms of a signal, a sensitivity and a radiation that are near the documented ones. -/
theorem temperature_inputs (m : Mode) {k : Calib F} {t : Calib ℝ} {δ : ℝ} (hp : AccuratePowers F δ) (hk : ExactTable k t)
    (hs : Scaled t) (hz : Sized t) (hq : Tempered t) (h0 : Within k.vdd0 3.3 (3.3 / 2 ^ 24))
    (hα : ∀ s, List.Forall₂ (fun a x => Within a x (|x| / 2 ^ 22)) (k.alpha s) (t.alpha s))
    (r : RamData) (actual : Resolution) (em : F) (ε : ℝ) (tR : Option F) (given : Option ℝ) (pixels : List Byte)
    (s : Subpage) (a : AccessPattern) (valid : List Bool) (dest out : List F) (tA : F) :
    let ρ : ℝ := 2 ^ CtrlField.resolution.code t.resolution / 2 ^ CtrlField.resolution.code actual
    let T := Datasheet.ambient t r
    let S := given.getD (T - t.cam.selfHeating)
    Readable t ρ r → Is em ε → 1 / 2 ^ 20 ≤ |ε| → |ε| ≤ 2 ^ 20 → Option.Rel Is tR given →
    200 ≤ T + 273.15 → 200 ≤ S + 273.15 → S + 273.15 ≤ 2 ^ 11 →
    rawPixelsToTemperatures (ε := Unit) m k em tR (resolutionCorrection k.resolution actual) pixels r s a valid dest =
      .ok (tA, out) →
    ∀ (i : Nat) (hi lo : Byte) (offset : Int) (kV kTa alpha K : ℝ) (comp : Option ℝ),
      valid[i]? = some true → i < dest.length → pixels[2 * i]? = some hi → pixels[2 * i + 1]? = some lo →
      (t.offsetRef s)[i]? = some offset → (t.kV s)[i]? = some kV → (t.kTa s)[i]? = some kTa →
      (t.alpha s)[i]? = some alpha → (t.apComp a)[i]? = some comp → t.kSTo[t.cam.basicRange]? = some K →
      let V := Datasheet.compensatedSignal t ρ ε r s a (be16 hi lo).toInt offset kV kTa (comp.getD 0)
      let α := Datasheet.sensitivity t r s alpha
      let R := Datasheet.reflected T S ε
      let ηv := compensatedError t ρ ε r s a (be16 hi lo).toInt offset kV kTa (comp.getD 0) / (α * R)
      let ηα := sensitivityError t r s alpha
      let ηr := reflectedError δ ε T (ambientError t r) S (surroundingsError (ambientError t r) given)
      1 / 2 ^ 30 ≤ α ∧ α ≤ 2 ^ 16 → 2 ^ 20 ≤ R → ηα ≤ 1 / 2 ^ 10 →
      ∃ v al rad κ : F, out[i]? = some (perPixelTemperature v al rad κ) ∧ Within v V (α * R * ηv) ∧ Within al α (α * ηα) ∧
        Within rad R (R * ηr) ∧ Is κ K := by
  intro ρ T S hr hem ε0 ε1 hgiven hT hS0 hS1 h i hi lo offset kV kTa alpha K
    comp hv hd hhi hlo hof hkv hkt hal hap hK V α R ηv ηα ηr sens rad errA
  obtain ⟨common, c1, c2, c3, c4, c5⟩ := common_within (ε := Unit) m hk hs h0 hr.plausible actual em
  obtain ⟨common', κ, n1, n2, n3, n4, hg⟩ := temps_ok h
  rw [c1] at n1
  cases n1
  -- the signal
  obtain ⟨raw, hraw⟩ := rawIr_of_common (px := pixels) (s := s) (a := a) (valid := valid) (dest := dest) c1
  obtain ⟨w, hw, hwV⟩ := signal_accurate m hk hs hz h0 r actual em ε pixels s a valid dest raw _ hr hem ε0 ε1 hraw i hi lo
    offset kV kTa comp hv hd hhi hlo hof hkv hkt hap
  obtain ⟨common', n1, _, _, hgr⟩ := rawIr_ok hraw
  rw [c1] at n1
  cases n1
  -- the parameters of the pixel
  obtain ⟨kv, gkv, rkv⟩ := rel_get (hk.kV s) hkv
  obtain ⟨kt, gkt, rkt⟩ := rel_get (hk.kTa s) hkt
  obtain ⟨cp, gcp, rcp⟩ := rel_get (hk.apComp a) hap
  obtain ⟨al, gal, ral⟩ := rel_get (hα s) hal
  obtain ⟨κ', gκ, rκ⟩ := rel_get hk.kSTo hK
  rw [hk.cam, gκ] at n3
  cases n3
  have hit : rawItem k pixels s a i = some ⟨(be16 hi lo).toInt, offset, kv, kt, cp⟩ := by
    unfold rawItem
    rw [pixelWords_get pixels i hi lo hhi hlo, hk.offsetRef, hof, gkv, gkt, gcp]
  have hde : dest[i]? = some (dest[i]'hd) := List.getElem?_eq_getElem hd
  rw [hgr, hit, hv, hde] at hw
  simp only [Option.map_some] at hw
  have hw' := Option.some.inj hw
  -- the bound
  have ea := ambientError_nonneg t r
  have hta : Within tA T (ambientError t r) := by rw [n2]; exact c3
  have a0 : 0 ≤ |T| := abs_nonneg _
  have e0 : 0 ≤ ambientError t r := le_trans (by positivity) ea
  have T1 : T ≤ 1000 := (le_abs_self _).trans hr.ambient
  have p0 : 0 < α := lt_of_lt_of_le (by norm_num) sens.1
  have R0 : 0 < R := lt_of_lt_of_le (by norm_num) rad
  obtain ⟨n, hn, hheat⟩ := hq.heating
  refine ⟨w, compensatedAlpha (k.tgc.map fun tgc => k.alphaCp s *. tgc) (sensitivityCorrection k tA) al,
    tAr tA (tR.getD (tA -. lit k.cam.selfHeating)) em, κ, ?_, ?_, ?_, ?_, rκ⟩
  · rw [hg]
    unfold tempItem
    rw [hit, gal, hv, hde]
    simp only [Option.map_some]
    rw [hw']
    rfl
  · refine Within.mono hwV (le_of_eq ?_)
    show _ = α * R * (_ / (α * R))
    exact (mul_div_cancel₀ _ (mul_pos p0 R0).ne').symm
  · refine sensitivity_within ral (hk.alphaCp s) hk.tgc hk.kSTa hta (hq.alpha s _ (List.mem_of_getElem? hal)) (hq.alphaCp s)
      hq.kSTa ?_ e0 hr.precise rfl sens.1 sens.2 rfl errA
    have := abs_sub T 25
    have h1000 := hr.ambient
    rw [abs_of_pos (a := (25 : ℝ)) (by norm_num)] at this
    change |T| ≤ 1000 at h1000
    linarith
  · have hrefl : Within (tR.getD (tA -. lit k.cam.selfHeating)) S (surroundingsError (ambientError t r) given) := by
      cases hgiven with
      | some hgv => exact Is.within hgv
      | none =>
        show Within (tA -. lit k.cam.selfHeating) (T - t.cam.selfHeating) (2 * ambientError t r)
        rw [hk.cam, hheat]
        have hl : Is (lit ((n : ℕ) : ℚ) : F) (n : ℝ) := is_lit (by push_cast; rfl) (by
          simpa using value_int (m := (n : ℤ)) (by rw [abs_of_nonneg (by omega)]; omega))
        have hn' : (n : ℝ) ≤ 16 := by exact_mod_cast hn
        have hn0 : (0 : ℝ) ≤ n := by positivity
        have hb : |T - n| ≤ |T| + 16 := by
          refine (abs_sub _ _).trans ?_
          rw [abs_of_nonneg hn0]; linarith
        have m1 := Within.sub hta (Is.within hl) (by
          refine big_range ?_
          have := hr.ambient
          have := hr.precise
          change |T| ≤ 1000 at *
          have : (1000 : ℝ) + 16 + 1 ≤ 2 ^ 126 := by norm_num
          linarith)
        simp only [Rat.cast_natCast] at *
        refine Within.mono m1 ?_
        unfold rd
        have t0 := tiny_pos
        have t1 := tiny
        have y : (1 : ℝ) / 2 ^ 100 ≤ 1 / 2 ^ 24 := by norm_num
        change (|T| + 50) / 2 ^ 20 ≤ ambientError t r at ea
        linarith
    have h1 := hr.precise
    have hw := reflected_within hp hta hrefl hem e0 (by linarith) (by cases given <;> simp only [surroundingsError] <;> linarith)
      (by cases given <;> simp only [surroundingsError] <;> linarith) hT (by norm_num; linarith) hS0 hS1 ε0 ε1
    refine Within.mono hw (le_of_eq ?_)
    show _ = R * (_ / R)
    exact (mul_div_cancel₀ _ R0.ne').symm

theorem temperature_accurate (m : Mode) {k : Calib F} {t : Calib ℝ} {δ : ℝ} (hp : AccuratePowers F δ) (hk : ExactTable k t)
    (hs : Scaled t) (hz : Sized t) (hq : Tempered t) (h0 : Within k.vdd0 3.3 (3.3 / 2 ^ 24))
    (hα : ∀ s, List.Forall₂ (fun a x => Within a x (|x| / 2 ^ 22)) (k.alpha s) (t.alpha s)) :
    TemperatureAccurate m k t δ := by
  intro r actual em ε tR given pixels s a valid dest out tA ρ T S hr hem ε0 ε1 hgiven hT hS0 hS1 h i hi lo offset kV kTa alpha K
    comp hv hd hhi hlo hof hkv hkt hal hap hK V α R ηv ηα ηr hM
  obtain ⟨v, al, rad, κ, h1, h2, h3, h4, h5⟩ := temperature_inputs m hp hk hs hz hq h0 hα r actual em ε tR given pixels s a valid
    dest out tA hr hem ε0 ε1 hgiven hT hS0 hS1 h i hi lo offset kV kTa alpha K comp hv hd hhi hlo hof hkv hkt hal hap hK hM.sensitivity
    hM.radiation.1 hM.errors.2.1
  exact ⟨_, h1, object_accurate hp h2 h3 h4 h5 hM⟩

/-- **C74 (size of the error).** In a typical scene, the temperature can be computed, and the error in °C is at most 1610 times the
relative errors of signal and radiation, 3610 times that of the sensitivity, and 12700 times that of powers and roots. -/
theorem C74_typical {v α tar k ηv ηα ηr δ : ℝ} (h : Typical v α tar k ηv ηα ηr δ) :
    Spec.Measurable v α tar k ηv ηα ηr δ ∧ objectError v α tar k ηv ηα ηr δ ≤ 1610 * (ηv + ηr) + 3610 * ηα + 12700 * δ := by
  obtain ⟨⟨α0, α1⟩, ⟨R0, R1⟩, hc, hk, ⟨v0, v1⟩, ⟨a0, a1⟩, ⟨r0, r1⟩, d0, d1⟩ := h
  have p0 : 0 < α := lt_of_lt_of_le (by norm_num) α0
  have tar0 : 0 < tar := lt_of_lt_of_le (by norm_num) R0
  have hc' := abs_le.1 hc
  have y0 : 0 < 1 + contrast v α tar := by linarith
  have kk : 0 ≤ |k| := abs_nonneg _
  have root : ∀ {x b : ℝ}, 0 ≤ x → 0 ≤ b → x ≤ b ^ 4 → x ^ (1 / 4 : ℝ) ≤ b := by
    intro x b hx hb h
    calc x ^ (1 / 4 : ℝ) ≤ (b ^ 4) ^ (1 / 4 : ℝ) := by gcongr
      _ = b := by
        rw [← Real.rpow_natCast, ← Real.rpow_mul hb]
        norm_num
  have E1 : firstEstimate v α tar ≤ 443 := by
    refine root (by positivity) (by norm_num) ?_
    calc tar * (1 + contrast v α tar) ≤ 400 ^ 4 * (3 / 2) := by
          refine mul_le_mul R1 (by linarith) y0.le (by norm_num)
      _ ≤ 443 ^ 4 := by norm_num
  have E0 : 0 < firstEstimate v α tar := by unfold firstEstimate; positivity
  have slope : |k * (firstEstimate v α tar - 273.15)| ≤ 0.27315 := by
    rw [abs_mul]
    calc |k| * |firstEstimate v α tar - 273.15| ≤ 1 / 1000 * 273.15 := by
          gcongr
          rw [abs_le]
          constructor <;> linarith
      _ ≤ _ := by norm_num
  have s0 := abs_le.1 slope
  have s1 : 0.72 ≤ slopeFactor v α tar k := by unfold slopeFactor; linarith
  have spos : 0 < slopeFactor v α tar k := by linarith
  have t1 : |trueContrast v α tar k| ≤ 0.7 := by
    unfold trueContrast
    rw [abs_div, abs_of_pos spos, div_le_iff₀ spos]
    linarith
  have t0 := abs_le.1 t1
  have tt : 0 ≤ |trueContrast v α tar k| := abs_nonneg _
  have f1 : firstError v α tar ηv ηα ηr δ ≤ 4 * ηv + 4 * ηr + 15 * ηα + 15 * δ := by
    unfold firstError
    rw [div_le_iff₀ y0]
    have : (1 + |contrast v α tar|) * (ηα + δ) ≤ 3 / 2 * (ηα + δ) :=
      mul_le_mul_of_nonneg_right (by linarith) (by linarith)
    have hm : (4 * ηv + 4 * ηr + 15 * ηα + 15 * δ) * (1 / 2) ≤ (4 * ηv + 4 * ηr + 15 * ηα + 15 * δ) * (1 + contrast v α tar) :=
      mul_le_mul_of_nonneg_left (by linarith) (by linarith)
    linarith
  have g1 : divisorError v α tar ηv ηα ηr δ ≤ 0.8 * ηv + 0.8 * ηr + 5 * ηα + 11 * δ := by
    unfold divisorError
    linarith
  have f0 : 0 ≤ firstError v α tar ηv ηα ηr δ := by
    unfold firstError
    have := abs_nonneg (contrast v α tar)
    exact div_nonneg (by positivity) y0.le
  have g0 : 0 ≤ divisorError v α tar ηv ηα ηr δ := by
    unfold divisorError
    linarith
  have y1 : 0.3 ≤ 1 + trueContrast v α tar k := by linarith
  -- the numerator of the error of the fourth power
  have q1 : fourthPowerError v α tar k ηv ηα ηr δ * (1 + trueContrast v α tar k) ≤ 3.25 * ηv + 3.17 * ηr + 7.3 * ηα + 21.2 * δ := by
    unfold fourthPowerError
    rw [div_mul_cancel₀ _ (by linarith)]
    have e1 : |trueContrast v α tar k| * divisorError v α tar ηv ηα ηr δ ≤ 0.7 * (0.8 * ηv + 0.8 * ηr + 5 * ηα + 11 * δ) :=
      mul_le_mul t1 g1 g0 (by norm_num)
    have e2 : (ηv + |trueContrast v α tar k| * divisorError v α tar ηv ηα ηr δ) / slopeFactor v α tar k ≤
        (ηv + 0.7 * (0.8 * ηv + 0.8 * ηr + 5 * ηα + 11 * δ)) / 0.72 :=
      div_le_div₀ (by linarith) (by linarith) (by norm_num) s1
    have e3 : δ * (1 + |trueContrast v α tar k|) ≤ δ * 1.7 := mul_le_mul_of_nonneg_left (by linarith) d0
    norm_num at e2 e3 ⊢
    linarith
  have q0 : 0 ≤ fourthPowerError v α tar k ηv ηα ηr δ := by
    unfold fourthPowerError
    refine div_nonneg ?_ (by linarith)
    have := div_nonneg (add_nonneg v0 (mul_nonneg tt g0)) spos.le
    have := mul_nonneg (mul_nonneg (by norm_num : (0 : ℝ) ≤ 3) d0) (by linarith : 0 ≤ 1 + |trueContrast v α tar k|)
    linarith
  have q2 : fourthPowerError v α tar k ηv ηα ηr δ * 0.3 ≤ 3.25 * ηv + 3.17 * ηr + 7.3 * ηα + 21.2 * δ :=
    le_trans (mul_le_mul_of_nonneg_left y1 q0) q1
  have X1 : Datasheet.object v α tar k + 273.15 ≤ 457 := by
    rw [object_eq p0 tar0 y0 spos, sub_add_cancel]
    refine root (mul_nonneg tar0.le (by linarith)) (by norm_num) ?_
    calc tar * (1 + trueContrast v α tar k) ≤ 400 ^ 4 * 1.7 := by
          refine mul_le_mul R1 (by linarith) (by linarith) (by norm_num)
      _ ≤ 457 ^ 4 := by norm_num
  have X2 : Datasheet.object v α tar k + 273.15 ≤ 988 * (1 + trueContrast v α tar k) := by
    rw [object_eq p0 tar0 y0 spos, sub_add_cancel]
    refine root (mul_nonneg tar0.le (by linarith)) (by linarith) ?_
    have hy : (0.3 : ℝ) ^ 3 ≤ (1 + trueContrast v α tar k) ^ 3 := by gcongr
    have hy' : 0 ≤ 1 + trueContrast v α tar k := by linarith
    calc tar * (1 + trueContrast v α tar k) ≤ 400 ^ 4 * (1 + trueContrast v α tar k) := by gcongr
      _ ≤ 988 ^ 4 * 0.3 ^ 3 * (1 + trueContrast v α tar k) := by gcongr; norm_num
      _ ≤ 988 ^ 4 * (1 + trueContrast v α tar k) ^ 3 * (1 + trueContrast v α tar k) := by gcongr
      _ = _ := by ring
  have X0 : 0 ≤ Datasheet.object v α tar k + 273.15 := by
    rw [object_eq p0 tar0 y0 spos, sub_add_cancel]
    exact Real.rpow_nonneg (mul_nonneg tar0.le (by linarith)) _
  refine ⟨⟨⟨α0, α1⟩, ⟨R0, R1.trans (by norm_num)⟩, hc.trans (by norm_num), y0, ⟨?_, ?_⟩, by linarith,
    ⟨?_, ?_, ?_⟩, ?_, ?_, ?_⟩, ?_⟩
  · calc |k| * 273.15 ≤ 1 / 1000 * 273.15 := by gcongr
      _ ≤ _ := by norm_num
  · calc |k| * firstEstimate v α tar ≤ 1 / 1000 * 443 := by gcongr
      _ ≤ _ := by norm_num
  · norm_num at v1 ⊢; linarith
  · norm_num at a1 ⊢; linarith
  · norm_num at r1 ⊢; linarith
  · norm_num at v1 a1 r1 d1 ⊢; linarith
  · norm_num at v1 a1 r1 d1 g1 s1 ⊢; linarith
  · norm_num at v1 a1 r1 d1 q2 ⊢; linarith
  · unfold objectError
    have e1 : fourthPowerError v α tar k ηv ηα ηr δ * (Datasheet.object v α tar k + 273.15) ≤
        988 * (3.25 * ηv + 3.17 * ηr + 7.3 * ηα + 21.2 * δ) := by
      calc fourthPowerError v α tar k ηv ηα ηr δ * (Datasheet.object v α tar k + 273.15)
          ≤ fourthPowerError v α tar k ηv ηα ηr δ * (988 * (1 + trueContrast v α tar k)) := by gcongr
        _ = 988 * (fourthPowerError v α tar k ηv ηα ηr δ * (1 + trueContrast v α tar k)) := by ring
        _ ≤ _ := by gcongr
    have e2 : 3 * δ * (Datasheet.object v α tar k + 273.15) ≤ 3 * δ * 457 := by gcongr
    have e3 : (fourthPowerError v α tar k ηv ηα ηr δ / 2 + 3 * δ) * (Datasheet.object v α tar k + 273.15) =
        fourthPowerError v α tar k ηv ηα ηr δ * (Datasheet.object v α tar k + 273.15) / 2 +
          3 * δ * (Datasheet.object v α tar k + 273.15) := by ring
    rw [e3]
    generalize fourthPowerError v α tar k ηv ηα ηr δ * (Datasheet.object v α tar k + 273.15) = x at *
    generalize 3 * δ * (Datasheet.object v α tar k + 273.15) = y at *
    norm_num at e1 e2 ⊢
    linarith

/-! ### Both cameras -/

attribute [local irreducible] signedAt bitsAt in
theorem tempered640 (E : Nat → Word) (hr : Ee640.Regular E) : Tempered (Ee640.calibration E) where
  alpha := by
    intro s x hx
    obtain ⟨i, hi, rfl⟩ := perPixel_mem hx
    unfold Ee640.alpha
    have h1 := fits_real (hr i hi).2.1
    split
    · exact h1.trans (by norm_num)
    · rename_i h
      have h2 := fits_real ((hr i hi).2.2 (by simpa using h)).2
      have e : ((Ee640.alphaAverage E : ℝ) + Ee640.alphaRow E i + Ee640.alphaCol E i + Ee640.alphaRest E i) =
          ((Ee640.alphaAverage E + Ee640.alphaRow E i + Ee640.alphaCol E i + Ee640.alphaRest E i : Int) : ℝ) := by
        push_cast; rfl
      rw [e]
      refine scaled_le _ ?_
      push_cast at h1 ⊢
      refine (abs_add_le _ _).trans ?_
      norm_num at h1 h2 ⊢
      linarith
  alphaCp := by
    have g : |(Ee640.calibration E).tgc.getD 0| ≤ 4 := by
      show |(if signedAt (E 0x243C) 0 8 = 0 then none else some ((signedAt (E 0x243C) 0 8 : ℝ) / 2 ^ 5)).getD 0| ≤ 4
      split
      · norm_num
      · have h := signed_real (E 0x243C) 0 8 (B := 128) (by decide) (by norm_num)
        show |(signedAt (E 0x243C) 0 8 : ℝ) / 2 ^ 5| ≤ 4
        rw [abs_div, abs_of_pos (a := ((2 : ℝ) ^ 5)) (by positivity), div_le_iff₀ (by positivity)]
        linarith
    have b : |(bitsAt (E 0x2439) 0 10 : ℝ) / 2 ^ (bitsAt (E 0x2420) 12 4 + 27)| ≤ 1024 := by
      have hb : bitsAt (E 0x2439) 0 10 < 2 ^ 10 := bitsAt_lt _ _ _
      have e : ((bitsAt (E 0x2439) 0 10 : ℕ) : ℝ) = ((bitsAt (E 0x2439) 0 10 : ℤ) : ℝ) := by push_cast; rfl
      rw [e]
      refine scaled_le _ ?_
      rw [← e, abs_of_nonneg (by positivity)]
      exact_mod_cast hb.le
    have c : ∀ s, |(Ee640.calibration E).alphaCp s| ≤ 2048 := by
      rintro (_ | _)
      · exact b.trans (by norm_num)
      · show |(bitsAt (E 0x2439) 0 10 : ℝ) / 2 ^ (bitsAt (E 0x2420) 12 4 + 27) * (1 + (signedAt (E 0x2439) 10 6 : ℝ) / 2 ^ 7)| ≤ _
        have h := signed_real (E 0x2439) 10 6 (B := 32) (by decide) (by norm_num)
        have h' : |1 + (signedAt (E 0x2439) 10 6 : ℝ) / 2 ^ 7| ≤ 2 := by
          have h2 := abs_le.1 h
          rw [abs_le]
          constructor
          · have : (-32 : ℝ) / 2 ^ 7 ≤ (signedAt (E 0x2439) 10 6 : ℝ) / 2 ^ 7 := by gcongr; exact h2.1
            norm_num at this ⊢
            linarith
          · have : (signedAt (E 0x2439) 10 6 : ℝ) / 2 ^ 7 ≤ 32 / 2 ^ 7 := by gcongr; exact h2.2
            norm_num at this ⊢
            linarith
        rw [abs_mul]
        calc _ ≤ (1024 : ℝ) * 2 := mul_le_mul b h' (abs_nonneg _) (by norm_num)
          _ = _ := by norm_num
    intro s
    rw [abs_mul]
    calc _ ≤ (4 : ℝ) * 2048 := mul_le_mul g (c s) (abs_nonneg _) (by norm_num)
      _ ≤ _ := by norm_num
  kSTa := by
    show |(signedAt (E 0x243C) 8 8 : ℝ) / 2 ^ 13| ≤ 1
    have h := signed_real (E 0x243C) 8 8 (B := 128) (by decide) (by norm_num)
    rw [abs_div, abs_of_pos (a := ((2 : ℝ) ^ 13)) (by positivity), div_le_iff₀ (by positivity)]
    linarith
  heating := ⟨8, by norm_num, rfl⟩

attribute [local irreducible] signedAt wrap16 bitsAt in
theorem tempered641 (D : Nat → BitVec 11) : Tempered (Ee641.calibration D) where
  alpha := by
    intro s x hx
    obtain ⟨i, hi, rfl⟩ := perPixel_mem hx
    unfold Ee641.alpha
    split
    · norm_num
    · have h1 : (Ee641.alphaRaw (Ee641.widen D) i : ℝ) ≤ 2047 := by
        have : Ee641.alphaRaw (Ee641.widen D) i ≤ 2047 := by
          unfold Ee641.alphaRaw
          rw [widen_toNat]
          have := (D (0x2500 + i)).isLt
          omega
        exact_mod_cast this
      have h2 : ((D (0x241C + Ee641.rowPair i)).toNat : ℝ) ≤ 2048 := by
        have := (D (0x241C + Ee641.rowPair i)).isLt
        exact_mod_cast this.le
      rw [abs_of_nonneg (by positivity)]
      have h3 : (Ee641.alphaRaw (Ee641.widen D) i : ℝ) / 2047 ≤ 1 := by rw [div_le_iff₀ (by norm_num)]; linarith
      have h4 : ((D (0x241C + Ee641.rowPair i)).toNat : ℝ) / 2 ^ Ee641.referenceExp (Ee641.widen D) (Ee641.rowPair i) ≤ 2048 :=
        (div_le_self (by positivity) (one_le_pow₀ (by norm_num))).trans h2
      calc _ ≤ (1 : ℝ) * 2048 := mul_le_mul h3 h4 (by positivity) (by norm_num)
        _ ≤ _ := by norm_num
  alphaCp := by
    intro s
    show |(signedAt (Ee641.widen D 0x2433) 0 9 : ℝ) / 2 ^ 6 * ((D 0x242D).toNat / 2 ^ (D 0x242E).toNat)| ≤ _
    have g : |(signedAt (Ee641.widen D 0x2433) 0 9 : ℝ) / 2 ^ 6| ≤ 4 := by
      have h := signed_real (Ee641.widen D 0x2433) 0 9 (B := 256) (by decide) (by norm_num)
      rw [abs_div, abs_of_pos (a := ((2 : ℝ) ^ 6)) (by positivity), div_le_iff₀ (by positivity)]
      linarith
    have c : |((D 0x242D).toNat : ℝ) / 2 ^ (D 0x242E).toNat| ≤ 2048 := by
      have h2 : ((D 0x242D).toNat : ℝ) ≤ 2048 := by
        have := (D 0x242D).isLt
        exact_mod_cast this.le
      rw [abs_of_nonneg (by positivity)]
      exact (div_le_self (by positivity) (one_le_pow₀ (by norm_num))).trans h2
    rw [abs_mul]
    calc _ ≤ (4 : ℝ) * 2048 := mul_le_mul g c (abs_nonneg _) (by norm_num)
      _ ≤ _ := by norm_num
  kSTa := by
    show |((D 0x2422).toInt : ℝ) / 2 ^ 15| ≤ 1
    have h : |((D 0x2422).toInt : ℝ)| ≤ 1024 := by exact_mod_cast (toInt_11 (D 0x2422)).trans (by decide)
    rw [abs_div, abs_of_pos (a := ((2 : ℝ) ^ 15)) (by positivity), div_le_iff₀ (by positivity)]
    linarith
  heating := ⟨5, by norm_num, rfl⟩

/-- **C74 (MLX90640).** With a calibration decoded in binary32 arithmetic from a regular dump, every element of an image
computed in binary32 arithmetic is as near to the documented temperature as `TemperatureAccurate` says. -/
theorem C74_temperature_640 (m m' : Mode) (data : List Byte) (c : Mlx90640.Calibration F) {δ : ℝ}
    (hp : AccuratePowers F δ) (h : Mlx90640.fromData m data = .ok c) (hr : Ee640.Regular (eepromWord data)) :
    TemperatureAccurate m' c.toCalib (Ee640.calibration (eepromWord data)) δ := by
  obtain ⟨h1, h2, h3⟩ := C69_exact_640 m data c h hr
  refine temperature_accurate m' hp h1 (scaled640 _) (sized640 _ hr) (tempered640 _ hr) h3 fun s => (h2 s).imp fun a x h => ?_
  exact Within.mono (Is.within h) (by positivity)

/-- **C74 (MLX90641).** The same for the MLX90641. -/
theorem C74_temperature_641 (m m' : Mode) (data : List Byte) (c : Mlx90641.Calibration F) {δ : ℝ}
    (hp : AccuratePowers F δ) (h : Mlx90641.fromData m data = .ok c) (D : Nat → BitVec 11)
    (hD : Ee641.Holds data D (Ee641.readAddresses 192)) (hr : Ee641.Regular D) (hs : ModerateScales D) :
    TemperatureAccurate m' c.toCalib (Ee641.calibration D) δ :=
  let ⟨h1, h2, h3⟩ := C69_exact_641 m data c h D hD hr hs
  temperature_accurate m' hp h1 (scaled641 _) (sized641 _ hr hs) (tempered641 _) h3 h2

/-! ### The hypotheses can be met -/

/-- Correctly rounded powers and roots are accurate. -/
theorem rounded_powers : AccuratePowers Rounded (1 / 2 ^ 24) where
  unit := le_rfl
  small := by norm_num
  powi a x n ha hn h1 h2 := by
    obtain ⟨_, rfl⟩ := of_val ha
    obtain ⟨w, e, h⟩ := rounds_rel (rounded_rounds (x ^ n)) (Or.inr h1) h2
    exact ⟨w, e, h.trans (le_of_eq (by ring))⟩
  powf a b x ha hb h1 := by
    have hx := Binary32.val_value a x ha
    obtain ⟨_, rfl⟩ := of_val ha
    obtain ⟨_, rfl⟩ := of_val hb
    have x0 : 0 < x := lt_of_lt_of_le (by positivity) h1
    have hle : x ≤ maxBinary32 := by
      have := value_abs_le hx
      rwa [abs_of_pos x0] at this
    have hp : 0 ≤ x ^ (1 / 4 : ℝ) := Real.rpow_nonneg x0.le _
    have hlow : (2 : ℝ) ^ (-126 : ℤ) ≤ |x ^ (1 / 4 : ℝ)| := by
      rw [abs_of_nonneg hp]
      rcases le_total x 1 with h | h
      · refine h1.trans ?_
        have := Real.rpow_le_rpow_of_exponent_ge x0 h (show (1 / 4 : ℝ) ≤ 1 by norm_num)
        rwa [Real.rpow_one] at this
      · have := Real.one_le_rpow h (show (0 : ℝ) ≤ 1 / 4 by norm_num)
        exact (zpow_le_one_of_nonpos₀ (by norm_num) (by norm_num)).trans this
    have hhigh : |x ^ (1 / 4 : ℝ)| ≤ maxBinary32 := by
      rw [abs_of_nonneg hp]
      rcases le_total x 1 with h | h
      · refine (Real.rpow_le_one x0.le h (by norm_num)).trans ?_
        refine le_trans ?_ max_ge
        exact one_le_zpow₀ (by norm_num) (by norm_num)
      · have := Real.rpow_le_rpow_of_exponent_le h (show (1 / 4 : ℝ) ≤ 1 by norm_num)
        rw [Real.rpow_one] at this
        exact this.trans hle
    obtain ⟨w, e, h⟩ := rounds_rel (rounded_rounds (x ^ (1 / 4 : ℝ))) (Or.inr hlow) hhigh
    rw [rounded_powf x0.le]
    refine ⟨w, e, h.trans (le_of_eq ?_)⟩
    rw [abs_of_nonneg hp]
    ring

attribute [local irreducible] signedAt bitsAt in
/-- The parameters that the first 64 words of the example set, and the bulk parameters of its pixel 367. -/
theorem header640 (E : Nat → Word) (hE : ∀ k, k < 64 → E (0x2400 + k) = BitVec.ofNat 16 (words640 k)) (t : Calib ℝ)
    (ht : t = Ee640.calibration E) :
    (t.kVdd = -3168 ∧ t.vdd25 = -13056 ∧ t.vdd0 = 3.3 ∧ t.kVptat = 22 / 4096 ∧ t.kTptat = 338 / 8 ∧ t.alphaPtat = 9 ∧
      t.vptat25 = 12273) ∧
    (t.gain = 6383 ∧ t.kSTa = -16 / 2 ^ 13 ∧ t.kSTo[t.cam.basicRange]? = some (-105 / 2 ^ 17) ∧ t.tgc = some (32 / 2 ^ 5) ∧
      t.resolution = .eighteen) ∧
    (t.offsetRefCp .zero = -75 ∧ t.alphaCp .zero = 70 / 2 ^ 34 ∧ t.kVCp .zero = 4 / 2 ^ 3 ∧ t.kTaCp .zero = 75 / 2 ^ 14 ∧
      t.apCompCp .zero .chess = none) ∧
    Ee640.offsetAverage E + Ee640.offsetRow E 367 + Ee640.offsetCol E 367 = -77 ∧
    Ee640.alphaAverage E + Ee640.alphaRow E 367 + Ee640.alphaCol E 367 = 16708 ∧ Ee640.alphaScaleExp E = 37 ∧
    Ee640.kTaRc E 367 = 84 ∧ Ee640.kTaScaleExp E = 14 ∧ Ee640.kV E 367 = 4 / 2 ^ 3 := by
  have wc : ∀ (k : Nat) (x : Word), k < 64 → BitVec.ofNat 16 (words640 k) = x → E (0x2400 + k) = x :=
    fun k x hk h => (hE k hk).trans h
  have w16 : E 0x2410 = 0x4210#16 := wc 16 _ (by decide) (by decide)
  have w17 : E 0x2411 = 0xffbb#16 := wc 17 _ (by decide) (by decide)
  have w20 : E 0x2414 = 0xf2f2#16 := wc 20 _ (by decide) (by decide)
  have w27 : E 0x241B = 0xe0ef#16 := wc 27 _ (by decide) (by decide)
  have w32 : E 0x2420 = 0x79a6#16 := wc 32 _ (by decide) (by decide)
  have w33 : E 0x2421 = 0x2f44#16 := wc 33 _ (by decide) (by decide)
  have w36 : E 0x2424 = 0x3333#16 := wc 36 _ (by decide) (by decide)
  have w43 : E 0x242B = 0x3333#16 := wc 43 _ (by decide) (by decide)
  have w48 : E 0x2430 = 0x18ef#16 := wc 48 _ (by decide) (by decide)
  have w49 : E 0x2431 = 0x2ff1#16 := wc 49 _ (by decide) (by decide)
  have w50 : E 0x2432 = 0x5952#16 := wc 50 _ (by decide) (by decide)
  have w51 : E 0x2433 = 0x9d68#16 := wc 51 _ (by decide) (by decide)
  have w52 : E 0x2434 = 0x5454#16 := wc 52 _ (by decide) (by decide)
  have w55 : E 0x2437 = 0x5354#16 := wc 55 _ (by decide) (by decide)
  have w56 : E 0x2438 = 0x2363#16 := wc 56 _ (by decide) (by decide)
  have w57 : E 0x2439 = 0xe446#16 := wc 57 _ (by decide) (by decide)
  have w58 : E 0x243A = 0xfbb5#16 := wc 58 _ (by decide) (by decide)
  have w59 : E 0x243B = 0x044b#16 := wc 59 _ (by decide) (by decide)
  have w60 : E 0x243C = 0xf020#16 := wc 60 _ (by decide) (by decide)
  have w61 : E 0x243D = 0x9797#16 := wc 61 _ (by decide) (by decide)
  have w63 : E 0x243F = 0x2889#16 := wc 63 _ (by decide) (by decide)
  clear wc hE
  subst ht
  have o1 : Ee640.offsetAverage E = -69 := by unfold Ee640.offsetAverage; rw [w17]; decide +kernel
  have o2 : Ee640.offsetRow E 367 = -4 := by
    show signedAt (E 0x2414) 12 4 * 2 ^ bitsAt (E 0x2410) 8 4 = _
    rw [w20, w16]; decide +kernel
  have o3 : Ee640.offsetCol E 367 = -4 := by
    show signedAt (E 0x241B) 12 4 * 2 ^ bitsAt (E 0x2410) 4 4 = _
    rw [w27, w16]; decide +kernel
  have a1 : Ee640.alphaAverage E = 12100 := by unfold Ee640.alphaAverage; rw [w33]; decide +kernel
  have a2 : Ee640.alphaRow E 367 = 1536 := by
    show signedAt (E 0x2424) 12 4 * 2 ^ bitsAt (E 0x2420) 8 4 = _
    rw [w36, w32]; decide +kernel
  have a3 : Ee640.alphaCol E 367 = 3072 := by
    show signedAt (E 0x242B) 12 4 * 2 ^ bitsAt (E 0x2420) 4 4 = _
    rw [w43, w32]; decide +kernel
  have a5 : Ee640.alphaScaleExp E = 37 := by unfold Ee640.alphaScaleExp; rw [w32]; decide +kernel
  have k1 : Ee640.kTaRc E 367 = 84 := by
    show signedAt (E 0x2437) 0 8 = _
    rw [w55]; decide +kernel
  have k3 : Ee640.kTaScaleExp E = 14 := by unfold Ee640.kTaScaleExp; rw [w56]; decide +kernel
  have v1 : Ee640.kVRaw E 367 = 4 := by
    show signedAt (E 0x2434) 0 4 = _
    rw [w52]; decide +kernel
  refine ⟨⟨?_, ?_, rfl, ?_, ?_, ?_, ?_⟩, ⟨?_, ?_, ?_, ?_, ?_⟩, ⟨?_, ?_, ?_, ?_, rfl⟩, ?_, ?_, a5, k1, k3, ?_⟩
  · show signedAt (E 0x2433) 8 8 * 2 ^ 5 = -3168
    rw [w51]; decide +kernel
  · show ((bitsAt (E 0x2433) 0 8 : Int) - 256) * 2 ^ 5 - 2 ^ 13 = -13056
    rw [w51]; decide +kernel
  · show ((signedAt (E 0x2432) 10 6 : Int) : ℝ) / 2 ^ 12 = _
    rw [w50, show signedAt 0x5952#16 10 6 = 22 by decide +kernel]; norm_num
  · show ((signedAt (E 0x2432) 0 10 : Int) : ℝ) / 2 ^ 3 = _
    rw [w50, show signedAt 0x5952#16 0 10 = 338 by decide +kernel]; norm_num
  · show ((bitsAt (E 0x2410) 12 4 / 4 : Nat) : ℝ) + 8 = _
    rw [w16, show bitsAt 0x4210#16 12 4 / 4 = 1 by decide +kernel]; norm_num
  · show ((signedAt (E 0x2431) 0 16 : Int) : ℝ) = _
    rw [w49, show signedAt 0x2ff1#16 0 16 = 12273 by decide +kernel]; norm_num
  · show ((signedAt (E 0x2430) 0 16 : Int) : ℝ) = _
    rw [w48, show signedAt 0x18ef#16 0 16 = 6383 by decide +kernel]; norm_num
  · show ((signedAt (E 0x243C) 8 8 : Int) : ℝ) / 2 ^ 13 = _
    rw [w60, show signedAt 0xf020#16 8 8 = -16 by decide +kernel]; norm_num
  · show some ((signedAt (E 0x243D) 8 8 : ℝ) / 2 ^ (bitsAt (E 0x243F) 0 4 + 8)) = _
    rw [w61, w63, show signedAt 0x9797#16 8 8 = -105 by decide +kernel, show bitsAt 0x2889#16 0 4 + 8 = 17 by decide +kernel]
    norm_num
  · show (if signedAt (E 0x243C) 0 8 = 0 then none else some ((signedAt (E 0x243C) 0 8 : ℝ) / 2 ^ 5)) = _
    rw [w60, show signedAt 0xf020#16 0 8 = 32 by decide +kernel]; norm_num
  · show CtrlField.resolution.decode (bitsAt (E 0x2438) 12 2) = _
    rw [w56]; decide +kernel
  · show signedAt (E 0x243A) 0 10 = _
    rw [w58]; decide +kernel
  · show ((bitsAt (E 0x2439) 0 10 : Nat) : ℝ) / 2 ^ (bitsAt (E 0x2420) 12 4 + 27) = _
    rw [w57, w32, show bitsAt 0xe446#16 0 10 = 70 by decide +kernel, show bitsAt 0x79a6#16 12 4 + 27 = 34 by decide +kernel]
    norm_num
  · show ((signedAt (E 0x243B) 8 8 : Int) : ℝ) / 2 ^ bitsAt (E 0x2438) 8 4 = _
    rw [w59, w56, show signedAt 0x044b#16 8 8 = 4 by decide +kernel, show bitsAt 0x2363#16 8 4 = 3 by decide +kernel]; norm_num
  · show ((signedAt (E 0x243B) 0 8 : Int) : ℝ) / 2 ^ (bitsAt (E 0x2438) 4 4 + 8) = _
    rw [w59, w56, show signedAt 0x044b#16 0 8 = 75 by decide +kernel, show bitsAt 0x2363#16 4 4 + 8 = 14 by decide +kernel]
    norm_num
  · rw [o1, o2, o3]; norm_num
  · rw [a1, a2, a3]; norm_num
  · unfold Ee640.kV
    rw [v1, w56, show bitsAt 0x2363#16 8 4 = 3 by decide +kernel]; norm_num

attribute [local irreducible] signedAt bitsAt in
/-- The parameters of the example, and of its pixel 367 (row 12, column 16 of the datasheet). -/
theorem parameters640 (t : Calib ℝ) (ht : t = Ee640.calibration (eepromWord example640)) :
    (t.kVdd = -3168 ∧ t.vdd25 = -13056 ∧ t.vdd0 = 3.3 ∧ t.kVptat = 22 / 4096 ∧ t.kTptat = 338 / 8 ∧ t.alphaPtat = 9 ∧
      t.vptat25 = 12273) ∧
    (t.gain = 6383 ∧ t.kSTa = -16 / 2 ^ 13 ∧ t.kSTo[t.cam.basicRange]? = some (-105 / 2 ^ 17) ∧ t.tgc = some (32 / 2 ^ 5) ∧
      t.resolution = .eighteen) ∧
    (t.offsetRefCp .zero = -75 ∧ t.alphaCp .zero = 70 / 2 ^ 34 ∧ t.kVCp .zero = 4 / 2 ^ 3 ∧ t.kTaCp .zero = 75 / 2 ^ 14 ∧
      t.apCompCp .zero .chess = none) ∧
    (t.offsetRef .zero)[367]? = some (-75) ∧ (t.alpha .zero)[367]? = some (17348 / 2 ^ 37) ∧
    (t.kV .zero)[367]? = some (4 / 2 ^ 3) ∧ (t.kTa .zero)[367]? = some (84 / 2 ^ 14) ∧
    (t.apComp .chess)[367]? = some none := by
  have w : ∀ k, k < 832 → eepromWord example640 (0x2400 + k) = BitVec.ofNat 16 (words640 k) := eepromWord_dump _
  have w32 : eepromWord example640 0x2420 = 0x79a6#16 := (w 32 (by decide)).trans (by decide)
  have w16 : eepromWord example640 0x2410 = 0x4210#16 := (w 16 (by decide)).trans (by decide)
  have w56 : eepromWord example640 0x2438 = 0x2363#16 := (w 56 (by decide)).trans (by decide)
  have wp : eepromWord example640 (0x2440 + 367) = 0x08a0#16 := (w 431 (by decide)).trans (by decide)
  obtain ⟨h1, h2, h3, o, a, a5, k1, k3, v1⟩ := header640 (eepromWord example640) (fun k hk => w k (by omega)) t ht
  refine ⟨h1, h2, h3, ?_⟩
  generalize eepromWord example640 = E at *
  clear w h1 h2 h3
  subst ht
  have hf : Ee640.isFailed E 367 = false := by unfold Ee640.isFailed; rw [wp]; decide
  have o4 : Ee640.offsetRest E 367 = 2 := by
    unfold Ee640.offsetRest
    rw [wp, w16]; decide +kernel
  have a4 : Ee640.alphaRest E 367 = 640 := by
    unfold Ee640.alphaRest
    rw [wp, w32]; decide +kernel
  have k2 : Ee640.kTaRest E 367 = 0 := by unfold Ee640.kTaRest; rw [wp, w56]; decide +kernel
  have get : ∀ {α : Type} (f : Nat → α), (perPixel 768 f)[367]? = some (f 367) := by
    intro α f
    unfold perPixel
    simp
  refine ⟨?_, ?_, ?_, ?_, ?_⟩
  · refine (get _).trans ?_
    unfold Ee640.offset
    rw [o, o4, hf]; rfl
  · refine (get _).trans ?_
    unfold Ee640.alpha
    have a' : (Ee640.alphaAverage E : ℝ) + Ee640.alphaRow E 367 + Ee640.alphaCol E 367 = 16708 := by exact_mod_cast a
    rw [a', a4, a5, hf]; norm_num
  · exact (get _).trans (congrArg some v1)
  · refine (get _).trans ?_
    unfold Ee640.kTa
    rw [k1, k2, k3, hf]; norm_num
  · exact get _

/-- The frame of the example, with a pixel that reads 512, an emissivity of 1 and surroundings 8 °C colder than the sensor,
is a typical scene. -/
theorem typical640 (t : Calib ℝ) (ht : t = Ee640.calibration (eepromWord example640)) {δ : ℝ} (d0 : 1 / 2 ^ 24 ≤ δ)
    (d1 : δ ≤ 1 / 2 ^ 24) :
    let T := Datasheet.ambient t readings640
    let V := Datasheet.compensatedSignal t 1 1 readings640 .zero .chess 512 (-75) (4 / 2 ^ 3) (84 / 2 ^ 14) 0
    let α := Datasheet.sensitivity t readings640 .zero (17348 / 2 ^ 37)
    let R := Datasheet.reflected T (T - 8) 1
    let ηv := compensatedError t 1 1 readings640 .zero .chess 512 (-75) (4 / 2 ^ 3) (84 / 2 ^ 14) 0 / (α * R)
    let ηα := sensitivityError t readings640 .zero (17348 / 2 ^ 37)
    let ηr := reflectedError δ 1 T (ambientError t readings640) (T - 8) (2 * ambientError t readings640)
    Typical V α R (-105 / 2 ^ 17) ηv ηα ηr δ ∧ 1610 * (ηv + ηr) + 3610 * ηα + 12700 * δ ≤ 0.09 := by
  obtain ⟨⟨e1, e2, e3, e4, e5, e6, e7⟩, ⟨g1, g2, -, g4, -⟩, ⟨c1, c2, c3, c4, c5⟩, -⟩ := parameters640 t ht
  have hV : Datasheet.deltaV t readings640 = 59 / 3168 := by
    unfold Datasheet.deltaV readings640
    rw [e1, e2]; norm_num
  have hT : Datasheet.ambient t readings640 = 136099541231863 / 3473307198907 := by
    unfold Datasheet.ambient
    rw [hV, e4, e5, e6, e7]; unfold readings640; norm_num
  have hP : ptatVoltage t readings640 = 264552805564416 / 20552113603 := by
    unfold ptatVoltage
    rw [hV, e4, e6]; unfold readings640; norm_num
  have hA : ambientError t readings640 ≤ 4 / 10000 := by
    unfold ambientError
    rw [hT, hP, e5]
    norm_num [abs_of_pos]
  have A0 : 0 ≤ ambientError t readings640 := le_trans (by positivity) (ambientError_nonneg t readings640)
  have hB : supplyError t 1 readings640 ≤ 1 / 1000000 := by
    unfold supplyError
    rw [hV]
    norm_num [abs_of_pos]
  have B0 : 0 ≤ supplyError t 1 readings640 := by
    unfold supplyError
    exact div_nonneg (add_nonneg (abs_nonneg _) (by norm_num)) (by norm_num)
  have hs : Datasheet.supply t 1 readings640 = 59 / 3168 + 3.3 := by
    unfold Datasheet.supply
    rw [hV, e3]; norm_num
  have hV' : Datasheet.compensatedSignal t 1 1 readings640 .zero .chess 512 (-75) (4 / 2 ^ 3) (84 / 2 ^ 14) 0 =
      5174955840091582878902627 / 9845308323733540962304 := by
    unfold Datasheet.compensatedSignal Datasheet.signal
    rw [hT, hs, g1, g4, c1, c3, c4, c5]; unfold readings640; norm_num
  have hα : Datasheet.sensitivity t readings640 .zero (17348 / 2 ^ 37) = 1814222945991819903 / 15275766608145338312163328 := by
    unfold Datasheet.sensitivity
    rw [hT, g2, g4, c2]; norm_num
  have hR : Datasheet.reflected (Datasheet.ambient t readings640) (Datasheet.ambient t readings640 - 8) 1 =
      (Datasheet.ambient t readings640 + 273.15) ^ 4 := by
    unfold Datasheet.reflected; ring
  have R0 : 9500000000 ≤ (Datasheet.ambient t readings640 + 273.15) ^ 4 := by rw [hT]; norm_num
  have R1 : (Datasheet.ambient t readings640 + 273.15) ^ 4 ≤ 9600000000 := by rw [hT]; norm_num
  have se : ∀ (raw offset : Int) (kV kTa : ℝ), |(raw : ℝ)| ≤ 512 → |(offset : ℝ)| ≤ 75 → |kV| ≤ 1 / 2 → |kTa| ≤ 6 / 1000 →
      0 ≤ signalError t 1 1 readings640 raw offset kV kTa 0 ∧
      signalError t 1 1 readings640 raw offset kV kTa 0 ≤ 1 / 800 := by
    intro raw offset kV kTa h1 h2 h3 h4
    unfold signalError
    rw [hs, hT, g1]
    dsimp only
    have n : |(raw : ℝ) * (6383 / ((readings640.gain : Int) : ℝ))| ≤ 512 := by
      rw [abs_mul]
      unfold readings640
      norm_num [abs_of_pos]
      linarith
    have a1 : 1 + |kTa| * (|(136099541231863 : ℝ) / 3473307198907 - 25| + 1) ≤ 11 / 10 := by
      have : |(136099541231863 : ℝ) / 3473307198907 - 25| ≤ 15 := by norm_num [abs_of_pos]
      have := mul_le_mul h4 (show |(136099541231863 : ℝ) / 3473307198907 - 25| + 1 ≤ 16 by linarith) (by positivity) (by norm_num)
      linarith
    have b1 : 1 + |kV| * (|(59 : ℝ) / 3168 + 3.3 - 3.3| + 1) ≤ 16 / 10 := by
      have : |(59 : ℝ) / 3168 + 3.3 - 3.3| ≤ 1 / 20 := by norm_num [abs_of_pos]
      have := mul_le_mul h3 (show |(59 : ℝ) / 3168 + 3.3 - 3.3| + 1 ≤ 21 / 20 by linarith) (by positivity) (by norm_num)
      linarith
    have a0 : 0 ≤ 1 + |kTa| * (|(136099541231863 : ℝ) / 3473307198907 - 25| + 1) := by positivity
    have b0 : 0 ≤ 1 + |kV| * (|(59 : ℝ) / 3168 + 3.3 - 3.3| + 1) := by positivity
    generalize 1 + |kTa| * (|(136099541231863 : ℝ) / 3473307198907 - 25| + 1) = a at *
    generalize 1 + |kV| * (|(59 : ℝ) / 3168 + 3.3 - 3.3| + 1) = b at *
    have k0 := abs_nonneg kTa
    have l0 := abs_nonneg kV
    have o0 := abs_nonneg (offset : ℝ)
    generalize |kTa| = x at *
    generalize |kV| = y at *
    generalize |(offset : ℝ)| = z at *
    generalize ambientError t readings640 = eA at *
    generalize supplyError t 1 readings640 = eB at *
    rw [abs_zero, add_zero, abs_one, div_one]
    refine ⟨by positivity, ?_⟩
    have t1 : b * x * eA ≤ 16 / 10 * (6 / 1000) * (4 / 10000) := by gcongr
    have t2 : a * y * eB ≤ 11 / 10 * (1 / 2) * (1 / 1000000) := by gcongr
    have t3 : 2 * (z + 1) * (b * x * eA + a * y * eB) ≤ 2 * (75 + 1) *
        (16 / 10 * (6 / 1000) * (4 / 10000) + 11 / 10 * (1 / 2) * (1 / 1000000)) := by gcongr
    have t4 : (z + 1) * a * b ≤ (75 + 1) * (11 / 10) * (16 / 10) := by gcongr
    revert n
    generalize |(raw : ℝ) * (6383 / ((readings640.gain : Int) : ℝ))| = w
    intro n
    norm_num at t3 t4 ⊢
    linarith
  intro T V α R ηv ηα ηr
  have q1 := se 512 (-75) (4 / 2 ^ 3) (84 / 2 ^ 14) (by norm_num) (by norm_num) (by norm_num [abs_of_pos]) (by norm_num [abs_of_pos])
  have q2 := se readings640.compensationPixel (-75) (4 / 2 ^ 3) (75 / 2 ^ 14) (by unfold readings640; norm_num) (by norm_num)
    (by norm_num [abs_of_pos]) (by norm_num [abs_of_pos])
  have hce : 0 ≤ compensatedError t 1 1 readings640 .zero .chess 512 (-75) (4 / 2 ^ 3) (84 / 2 ^ 14) 0 ∧
      compensatedError t 1 1 readings640 .zero .chess 512 (-75) (4 / 2 ^ 3) (84 / 2 ^ 14) 0 ≤ 1 / 200 := by
    unfold compensatedError
    rw [g4, c1, c3, c4, c5]
    simp only [Option.getD_some, Option.getD_none]
    rw [show |(32 : ℝ) / 2 ^ 5| = 1 by norm_num]
    constructor <;> linarith [q1.1, q1.2, q2.1, q2.2]
  have α0 : (118 : ℝ) / 10 ^ 9 ≤ α := by
    show _ ≤ Datasheet.sensitivity t readings640 .zero (17348 / 2 ^ 37)
    rw [hα]; norm_num
  have α1 : α ≤ (119 : ℝ) / 10 ^ 9 := by
    show Datasheet.sensitivity t readings640 .zero (17348 / 2 ^ 37) ≤ _
    rw [hα]; norm_num
  have hR0 : 9500000000 ≤ R := by show _ ≤ Datasheet.reflected _ _ _; rw [hR]; exact R0
  have hR1 : R ≤ 9600000000 := by show Datasheet.reflected _ _ _ ≤ _; rw [hR]; exact R1
  have αR : 1121 ≤ α * R := by
    calc (1121 : ℝ) = 118 / 10 ^ 9 * 9500000000 := by norm_num
      _ ≤ _ := by gcongr
  have αR0 : 0 < α * R := by linarith
  have bounds : (0 ≤ ηv ∧ ηv ≤ 45 / 10 ^ 7) ∧ (0 ≤ ηα ∧ ηα ≤ 38 / 10 ^ 7) ∧ 0 ≤ ηr ∧ ηr ≤ 42 / 10 ^ 6 := by
    refine ⟨⟨?_, ?_⟩, ⟨?_, ?_⟩, ?_, ?_⟩
    · show 0 ≤ _ / (α * R)
      exact div_nonneg hce.1 αR0.le
    · show _ / (α * R) ≤ _
      rw [div_le_iff₀ αR0]
      norm_num at hce ⊢
      linarith [hce.2]
    · show 0 ≤ sensitivityError _ _ _ _
      unfold sensitivityError
      dsimp only
      positivity
    · show sensitivityError _ _ _ _ ≤ _
      unfold sensitivityError
      dsimp only
      rw [hT, g2, g4, c2]
      have : |(-16 : ℝ) / 2 ^ 13| * ambientError t readings640 ≤ 1 / 512 * (4 / 10000) := by
        norm_num [abs_of_pos]; linarith
      generalize |(-16 : ℝ) / 2 ^ 13| * ambientError t readings640 = z at *
      simp only [Option.getD_some]
      norm_num [abs_of_pos] at this ⊢
      linarith
    · show 0 ≤ reflectedError _ _ _ _ _ _
      unfold reflectedError powerError
      have p1 : 0 ≤ T + 273.15 := by show 0 ≤ Datasheet.ambient t readings640 + 273.15; rw [hT]; norm_num
      have p2 : 0 ≤ T - 8 + 273.15 := by show 0 ≤ Datasheet.ambient t readings640 - 8 + 273.15; rw [hT]; norm_num
      have d00 : 0 ≤ δ := le_trans (by norm_num) d0
      refine div_nonneg ?_ (by linarith : 0 ≤ R)
      positivity
    · show reflectedError _ _ _ _ _ _ ≤ _
      unfold reflectedError powerError
      have p1 : T + 273.15 ≤ 312.4 := by show Datasheet.ambient t readings640 + 273.15 ≤ _; rw [hT]; norm_num
      have p2 : T - 8 + 273.15 ≤ 304.4 := by show Datasheet.ambient t readings640 - 8 + 273.15 ≤ _; rw [hT]; norm_num
      have p1' : 0 ≤ T + 273.15 := by show 0 ≤ Datasheet.ambient t readings640 + 273.15; rw [hT]; norm_num
      have p2' : 0 ≤ T - 8 + 273.15 := by show 0 ≤ Datasheet.ambient t readings640 - 8 + 273.15; rw [hT]; norm_num
      have d00 : 0 ≤ δ := le_trans (by norm_num) d0
      rw [div_le_iff₀ (by linarith : 0 < R), abs_one, div_one]
      have u1 : 6 * (T + 273.15) ^ 3 * (ambientError t readings640 + 2 * δ * (T + 273.15 + 273.15)) ≤
          6 * 312.4 ^ 3 * (4 / 10000 + 2 * (1 / 2 ^ 24) * (312.4 + 273.15)) := by gcongr
      have u2 : 6 * (T - 8 + 273.15) ^ 3 * (2 * ambientError t readings640 + 2 * δ * (T - 8 + 273.15 + 273.15)) ≤
          6 * 304.4 ^ 3 * (2 * (4 / 10000) + 2 * (1 / 2 ^ 24) * (304.4 + 273.15)) := by gcongr
      norm_num at u1 u2 ⊢
      linarith
  obtain ⟨⟨v0, v1⟩, ⟨a0, a1⟩, r0, r1⟩ := bounds
  have d00 : 0 ≤ δ := le_trans (by norm_num) d0
  refine ⟨⟨⟨by norm_num at α0 ⊢; linarith, by norm_num at α1 ⊢; linarith⟩, ⟨by linarith, by norm_num at hR1 ⊢; linarith⟩, ?_, ?_,
    ⟨v0, v1.trans (by norm_num)⟩, ⟨a0, a1.trans (by norm_num)⟩, ⟨r0, r1.trans (by norm_num)⟩, d00, d1.trans (by norm_num)⟩, ?_⟩
  · unfold contrast
    show |Datasheet.compensatedSignal t 1 1 readings640 .zero .chess 512 (-75) (4 / 2 ^ 3) (84 / 2 ^ 14) 0 / (α * R)| ≤ _
    rw [hV', abs_of_nonneg (div_nonneg (by norm_num) αR0.le), div_le_iff₀ αR0]
    norm_num
    linarith
  · norm_num [abs_of_pos]
  · clear_value ηv ηα ηr
    norm_num at v1 a1 r1 d1 ⊢
    linarith

/-- Pixel 367 of an image that is computed from the example with correctly rounded operations has the documented temperature,
with an error of less than 0.09 °C. -/
example (m m' : Mode) (c : Mlx90640.Calibration Rounded) (h : Mlx90640.fromData m example640 = .ok c) (em tA : Rounded)
    (hem : Is em 1) (pixels : List Byte) (h1 : pixels[734]? = some 2#8) (h2 : pixels[735]? = some 0#8) (valid : List Bool)
    (hv : valid[367]? = some true) (dest out : List Rounded) (hd : dest.length = 768)
    (ho : rawPixelsToTemperatures (ε := Unit) m' c.toCalib em none (resolutionCorrection c.toCalib.resolution .eighteen) pixels
      readings640 .zero .chess valid dest = .ok (tA, out)) :
    let t := Ee640.calibration (eepromWord example640)
    ∃ v, out[367]? = some v ∧ Within v
      (Datasheet.object (Datasheet.compensatedSignal t 1 1 readings640 .zero .chess 512 (-75) (4 / 2 ^ 3) (84 / 2 ^ 14) 0)
        (Datasheet.sensitivity t readings640 .zero (17348 / 2 ^ 37))
        (Datasheet.reflected (Datasheet.ambient t readings640) (Datasheet.ambient t readings640 - 8) 1) (-105 / 2 ^ 17)) 0.09 := by
  intro t
  obtain ⟨⟨e1, e2, e3, e4, e5, e6, e7⟩, ⟨g1, g2, g3, g4, g5⟩, -, p1, p2, p3, p4, p5⟩ := parameters640 t rfl
  have hT : Datasheet.ambient t readings640 = 136099541231863 / 3473307198907 := by
    unfold Datasheet.ambient Datasheet.deltaV
    rw [e1, e2, e4, e5, e6, e7]; unfold readings640; norm_num
  obtain ⟨hty, hsize⟩ := typical640 t rfl le_rfl le_rfl
  obtain ⟨hM, hE⟩ := C74_typical hty
  have hρ : (2 : ℝ) ^ CtrlField.resolution.code t.resolution / 2 ^ CtrlField.resolution.code Resolution.eighteen = 1 := by
    rw [g5]; exact div_self (by positivity)
  have hheat : ((t.cam.selfHeating : ℚ) : ℝ) = 8 := by
    show (((8 : ℚ) : ℚ) : ℝ) = 8
    norm_num
  have hsame : SameEeprom (fun a => BitVec.ofNat 16 (words640 (a - 0x2400))) (eepromWord example640) := by
    intro a a1 a2
    obtain ⟨k, rfl⟩ := Nat.exists_eq_add_of_le a1
    refine Eq.trans ?_ (eepromWord_dump _ k (by omega)).symm
    show BitVec.ofNat 16 (words640 (0x2400 + k - 0x2400)) = _
    rw [Nat.add_sub_cancel_left]
  have hreg : Ee640.Regular (eepromWord example640) := hsame.regular (by decide +kernel)
  have key : TemperatureAccurate m' c.toCalib t _ := C74_temperature_640 m m' example640 c rounded_powers h hreg
  have hr : Readable t 1 readings640 := readable640
  clear_value t
  have key := key readings640 .eighteen em 1 none none pixels .zero .chess valid dest out tA
  dsimp only at key
  rw [hρ] at key
  simp only [Option.getD_none, hheat] at key
  obtain ⟨v, v1, v2⟩ := key hr hem (by norm_num) (by norm_num) .none (by rw [hT]; norm_num) (by rw [hT]; norm_num)
    (by rw [hT]; norm_num) ho 367 2#8 0#8 (-75) _ _ _ _ _ hv (by omega) h1 h2 p1 p3 p4 p2 p5 g3 hM
  exact ⟨v, v1, Within.mono v2 (hE.trans hsize)⟩

end Mlx.Props
