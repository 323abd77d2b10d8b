import Verif.Proofs.Calc
import Verif.Spec.Datasheet
import Verif.Spec.Toy
import Mathlib.Tactic.Linarith
import Mathlib.Tactic.FieldSimp
import Mathlib.Tactic.Ring
import Mathlib.Tactic.NormNum
import Mathlib.Tactic.Positivity
import Mathlib.Analysis.SpecialFunctions.Pow.NNReal
/-
Numeric properties: what the formulas compute, in exact real arithmetic, and where integers overflow.
-/
set_option autoImplicit false
namespace Mlx.Props
open Mlx Mlx.Spec Mlx.Proofs F32Ops
variable {F ε : Type} [F32Ops F]

/-- **C23.** `delta_v` for a V_DD reading `v`, in full: it is the documented quotient exactly when
`v - v_dd_25` fits an `i16`; otherwise a checked build panics and a release build divides a value that is off
by 65536. -/
theorem C23_delta_v_exact (m : Mode) (c : Calib F) (v : Int) :
    (-32768 ≤ v - c.vdd25 ∧ v - c.vdd25 ≤ 32767 →
      deltaV (ε := ε) m c v = .ok (ofInt (v - c.vdd25) /. ofInt c.kVdd)) ∧
    (¬ (-32768 ≤ v - c.vdd25 ∧ v - c.vdd25 ≤ 32767) →
      deltaV (ε := ε) .checked c v = .panic ∧
      (-32768 ≤ v ∧ v ≤ 32767 → -32768 ≤ c.vdd25 ∧ c.vdd25 ≤ 32767 →
        deltaV (ε := ε) .wrapping c v =
          .ok (ofInt (v - c.vdd25 + if 0 ≤ v then -65536 else 65536) /. ofInt c.kVdd))) := by
  constructor
  · intro h
    unfold deltaV arith16
    rw [if_pos h]; rfl
  · intro h
    refine ⟨?_, fun h1 h2 => ?_⟩
    · unfold deltaV arith16
      rw [if_neg h]; rfl
    · unfold deltaV arith16
      rw [if_neg h]
      simp only [Res.ok_bind]
      congr 3
      rw [Int.bmod_def]
      split <;> split <;> omega

/-- **C23 (the claim is false).** A V_DD reading of 32767 with the supply calibration of a real MLX90640
(`v_dd_25 = -12544`) makes every conversion panic in a checked build. -/
theorem C23_overflow_reachable (em rc : F) (tR : Option F) (px : List Byte) (s : Subpage) (a : AccessPattern)
    (valid : List Bool) (dest : List F) :
    let c := toyCalib Mlx90640.cam 768 (none : Option F)
    let ram := { toyRam with vddPixel := 32767 }
    rawPixelsToTemperatures (ε := ε) .checked c em tR rc px ram s a valid dest = .panic ∧
    rawPixelsToIrData (ε := ε) .checked c em rc px ram s a valid dest = .panic := by
  intro c ram
  have h : deltaV (ε := ε) .checked c ram.vddPixel = .panic :=
    ((C23_delta_v_exact .checked c 32767).2 (by show ¬ (-32768 ≤ (32767 : Int) - (-12544) ∧ (32767 : Int) - (-12544) ≤ 32767); decide)).1
  have h' : CommonIrData.new (ε := ε) .checked rc em c ram = .panic := by
    unfold CommonIrData.new; rw [h]; rfl
  constructor
  · unfold rawPixelsToTemperatures; rw [h']; rfl
  · unfold rawPixelsToIrData; rw [h']; rfl

/-- Two of the hypotheses of `C23_delta_v_exact` met: a typical reading fits, an extreme one does not. -/
example : (-32768 ≤ (-13115 : Int) - (-12544) ∧ (-13115 : Int) - (-12544) ≤ 32767) ∧
    ¬ (-32768 ≤ (20224 : Int) - (-12544) ∧ (20224 : Int) - (-12544) ≤ 32767) := by decide

theorem new_real {m : Mode} {c : Calib ℝ} {em rc : ℝ} {ram : RamData} {common : CommonIrData ℝ}
    (hr : -32768 ≤ ram.vddPixel - c.vdd25 ∧ ram.vddPixel - c.vdd25 ≤ 32767)
    (h : CommonIrData.new (ε := ε) m rc em c ram = .ok common) :
    common.gain = c.gain / ram.gain ∧ common.vDd = Datasheet.supply c rc ram ∧
      common.emissivity = em ∧ common.tA = Datasheet.ambient c ram := by
  unfold CommonIrData.new at h
  rw [(C23_delta_v_exact m c ram.vddPixel).1 hr] at h
  simp only [Res.ok_bind, Res.ok.injEq] at h
  subst h
  refine ⟨rfl, ?_, rfl, ?_⟩
  · show ((ram.vddPixel - c.vdd25 : Int) : ℝ) / (c.kVdd : ℝ) * rc + c.vdd0 = _
    unfold Datasheet.supply Datasheet.deltaV
    push_cast
    ring
  · show ((ram.tAPtat : ℝ) / (ram.tAPtat * c.alphaPtat + ram.tAVbe) * (2 : ℝ) ^ (((18 : Rat) : ℝ)) /
        (((1 : Rat) : ℝ) + c.kVptat * (((ram.vddPixel - c.vdd25 : Int) : ℝ) / (c.kVdd : ℝ))) - c.vptat25)
        / c.kTptat + ((25 : Rat) : ℝ) = _
    unfold Datasheet.ambient Datasheet.deltaV
    push_cast
    rw [show (2 : ℝ) ^ (18 : ℝ) = 2 ^ 18 by exact_mod_cast Real.rpow_natCast 2 18]

theorem vir_real {c : Calib ℝ} {em rc : ℝ} {ram : RamData} {common : CommonIrData ℝ}
    (h : common.gain = c.gain / ram.gain ∧ common.vDd = Datasheet.supply c rc ram ∧
      common.emissivity = em ∧ common.tA = Datasheet.ambient c ram) (raw offset : Int) (kV kTa : ℝ)
    (comp : Option ℝ) :
    perPixelVIr raw common offset kV kTa comp =
      Datasheet.signal c rc em ram raw offset kV kTa (comp.getD 0) := by
  obtain ⟨h1, h2, h3, h4⟩ := h
  unfold perPixelVIr Datasheet.signal
  show ((raw : ℝ) * common.gain + comp.getD (((0 : Rat) : ℝ)) - (offset : ℝ) *
      (((1 : Rat) : ℝ) + kTa * (common.tA - ((25 : Rat) : ℝ))) *
      (((1 : Rat) : ℝ) + kV * (common.vDd - ((33/10 : Rat) : ℝ)))) / common.emissivity = _
  rw [h1, h2, h3, h4]
  push_cast
  rw [show (33 / 10 : ℝ) = 3.3 by norm_num]

theorem rawValue_real {c : Calib ℝ} {em rc : ℝ} {ram : RamData} {common : CommonIrData ℝ} {s : Subpage}
    {a : AccessPattern}
    (h : common.gain = c.gain / ram.gain ∧ common.vDd = Datasheet.supply c rc ram ∧
      common.emissivity = em ∧ common.tA = Datasheet.ambient c ram) (x : RawItem ℝ) :
    rawValue common (cpOffset c common ram s a) x =
      Datasheet.compensatedSignal c rc em ram s a x.word x.offset x.kV x.kTa (x.comp.getD 0) := by
  unfold rawValue cpOffset Datasheet.compensatedSignal
  cases htgc : c.tgc with
  | none =>
    simp only [Option.map_none, Option.getD_none, zero_mul, sub_zero]
    exact vir_real h ..
  | some t =>
    simp only [Option.map_some, Option.getD_some]
    rw [vir_real h, vir_real h]
    rfl

theorem perPixelTemperature_real (v alpha tar kSTo : ℝ) :
    perPixelTemperature v alpha tar kSTo = Datasheet.object v alpha tar kSTo := by
  show (v / (alpha * (((1 : Rat) : ℝ) - kSTo * ((27315/100 : Rat) : ℝ)) +
      kSTo * (alpha ^ (3 : Int) * v + alpha ^ (4 : Int) * tar) ^ (((1/4 : Rat) : ℝ))) + tar) ^
      (((1/4 : Rat) : ℝ)) - ((27315/100 : Rat) : ℝ) = _
  unfold Datasheet.object
  push_cast
  rw [show (27315 / 100 : ℝ) = 273.15 by norm_num]
  norm_cast

theorem tAr_real (tA tR em : ℝ) : tAr tA tR em = Datasheet.reflected tA tR em := by
  have hk : (kelvins : ℝ) = 273.15 := by
    show ((27315/100 : Rat) : ℝ) = 273.15
    push_cast; norm_num
  have hp : ∀ x : ℝ, (powi (x +. kelvins) 4 : ℝ) = (x + 273.15) ^ 4 := by
    intro x
    show (x + kelvins) ^ (4 : Int) = _
    rw [hk]; norm_cast
  unfold tAr Datasheet.reflected
  simp only [hp]
  split
  · rename_i h
    have : em = 1 := by
      have h' : em = ((1 : Rat) : ℝ) := by simpa [feq, lit] using h
      simpa using h'
    rw [this]; ring
  · rfl

/-- **C55 (formulas).** In exact arithmetic, when the V_DD difference fits an `i16`, the temperature
conversion returns the documented ambient temperature, and stores in each selected element `i` the documented
object temperature of the raw word, offset, K_v, K_ta, compensation and sensitivity of pixel `i`; the IR
conversion stores the documented compensated signal. -/
theorem C55_documented_formulas (m : Mode) (c : Calib ℝ) (em rc tA : ℝ)
    (tR : Option ℝ) (px : List Byte) (ram : RamData) (s : Subpage)
    (a : AccessPattern) (valid : List Bool) (dest out : List ℝ)
    (hr : -32768 ≤ ram.vddPixel - c.vdd25 ∧ ram.vddPixel - c.vdd25 ≤ 32767)
    (i : Nat) (hv : valid[i]? = some true) (hd : i < dest.length)
    (hi' : Byte) (lo : Byte) (hhi : px[2 * i]? = some hi') (hlo : px[2 * i + 1]? = some lo)
    (offset : Int) (hof : (c.offsetRef s)[i]? = some offset) (kV kTa alpha : ℝ)
    (hkv : (c.kV s)[i]? = some kV) (hkt : (c.kTa s)[i]? = some kTa) (hal : (c.alpha s)[i]? = some alpha)
    (comp : Option ℝ) (hap : (c.apComp a)[i]? = some comp) (kSTo : ℝ)
    (hks : c.kSTo[c.cam.basicRange]? = some kSTo) :
    let raw := (be16 hi' lo).toInt
    let signal := Datasheet.compensatedSignal c rc em ram s a raw offset kV kTa (comp.getD 0)
    (rawPixelsToIrData (ε := ε) m c em rc px ram s a valid dest = .ok (tA, out) →
      tA = Datasheet.ambient c ram ∧ out[i]? = some signal) ∧
    (rawPixelsToTemperatures (ε := ε) m c em tR rc px ram s a valid dest = .ok (tA, out) →
      tA = Datasheet.ambient c ram ∧
      out[i]? = some (Datasheet.object signal (Datasheet.sensitivity c ram s alpha)
        (Datasheet.reflected tA (tR.getD (tA - c.cam.selfHeating)) em) kSTo)) := by
  intro raw signal
  have hit : rawItem c px s a i = some ⟨raw, offset, kV, kTa, comp⟩ := by
    unfold rawItem
    rw [pixelWords_get px i hi' lo hhi hlo, hof, hkv, hkt, hap]
  have hde : dest[i]? = some (dest[i]'hd) := List.getElem?_eq_getElem hd
  constructor
  · intro h
    obtain ⟨common, hn, ht, _, hg⟩ := rawIr_ok h
    have hreal := new_real hr hn
    refine ⟨ht.trans hreal.2.2.2, ?_⟩
    rw [hg, hit, hv, hde]
    simp only [Option.map_some]
    rw [rawValue_real hreal]
  · intro h
    obtain ⟨common, k, hn, ht, hk, _, hg⟩ := temps_ok h
    rw [hks] at hk
    cases hk
    have hreal := new_real hr hn
    have hta := ht.trans hreal.2.2.2
    refine ⟨hta, ?_⟩
    rw [hg]
    unfold tempItem
    rw [hit, hal, hv, hde]
    simp only [Option.map_some]
    rw [rawValue_real hreal]
    unfold tempValue
    rw [perPixelTemperature_real]
    congr 2
    · unfold tempFrame compensatedAlpha sensitivityCorrection Datasheet.sensitivity
      rw [hta]
      cases c.tgc with
      | none =>
        show alpha * (((1 : Rat) : ℝ) + c.kSTa * (Datasheet.ambient c ram - ((25 : Rat) : ℝ))) = _
        push_cast
        simp
      | some t =>
        show (alpha - c.alphaCp s * t) * (((1 : Rat) : ℝ) + c.kSTa *
          (Datasheet.ambient c ram - ((25 : Rat) : ℝ))) = _
        push_cast
        simp only [Option.getD_some]
        ring
    · unfold tempFrame
      exact tAr_real ..

/-- A pixel of a typical calibration satisfies the hypotheses of `C55_documented_formulas`. -/
example : ∃ r, rawPixelsToTemperatures (F := ℝ) (ε := LibErr) .checked (toyCalib Mlx90640.cam 3 (some 1)) 1
    none 1 [0, 7, 1, 0, 2, 2] toyRam .zero .chess [true, false, true] [11, 12, 13] = .ok r :=
  ⟨_, rfl⟩

/-- **C59.** The code's supply voltage against the datasheet's: with a resolution correction `r`, the code
computes `r * (V_DD_pix − V_DD_25) / K + V_DD_0` where the datasheet (and the first line of the function's own
documentation) has `(r * V_DD_pix − V_DD_25) / K + V_DD_0`. They differ by `(r − 1) * V_DD_25 / K`, so they
agree exactly when `r = 1` (or `V_DD_25 = 0`). -/
theorem C59_supply_voltage_vs_datasheet (m : Mode) (c : Calib ℝ) (rc em : ℝ) (ram : RamData)
    (common : CommonIrData ℝ) (hk : c.kVdd ≠ 0)
    (hr : -32768 ≤ ram.vddPixel - c.vdd25 ∧ ram.vddPixel - c.vdd25 ≤ 32767)
    (h : CommonIrData.new (ε := ε) m rc em c ram = .ok common) :
    Datasheet.supplyDatasheet c rc ram - common.vDd = (rc - 1) * c.vdd25 / c.kVdd ∧
    (common.vDd = Datasheet.supplyDatasheet c rc ram ↔ rc = 1 ∨ c.vdd25 = 0) := by
  have e := (new_real hr h).2.1
  have hk' : (c.kVdd : ℝ) ≠ 0 := by exact_mod_cast hk
  have e1 : Datasheet.supplyDatasheet c rc ram - common.vDd = (rc - 1) * c.vdd25 / c.kVdd := by
    rw [e]
    unfold Datasheet.supply Datasheet.supplyDatasheet Datasheet.deltaV
    field_simp
    ring
  refine ⟨e1, ?_⟩
  constructor
  · intro h
    rw [h, sub_self] at e1
    have := div_eq_zero_iff.1 e1.symm
    rcases this with h | h
    · rcases mul_eq_zero.1 h with h | h
      · left; linarith
      · right; exact_mod_cast h
    · exact absurd h hk'
  · intro h
    have : (rc - 1) * c.vdd25 / c.kVdd = 0 := by
      rcases h with h | h <;> simp [h]
    linarith

/-- **C59 (the claim is false).** With a typical MLX90640 supply calibration, running at 19 bits after a
calibration at 18 bits (`resolution_correction` ½), code and datasheet disagree by about 2 V. -/
theorem C59_supply_voltage_differs (ram : RamData) (common : CommonIrData ℝ)
    (hr : -32768 ≤ ram.vddPixel + 12544 ∧ ram.vddPixel + 12544 ≤ 32767)
    (h : CommonIrData.new (ε := ε) .checked (resolutionCorrection .eighteen .nineteen) 1
      (toyCalib Mlx90640.cam 768 (none : Option ℝ)) ram = .ok common) :
    common.vDd - Datasheet.supplyDatasheet (toyCalib Mlx90640.cam 768 none)
      (resolutionCorrection .eighteen .nineteen) ram > 1.9 := by
  have hrc : (resolutionCorrection .eighteen .nineteen : ℝ) = 1 / 2 := by
    show (2 : ℝ) ^ (((-1 : Int)) : ℝ) = 1 / 2
    rw [Real.rpow_intCast]; norm_num
  have e := (C59_supply_voltage_vs_datasheet (ε := ε) .checked (toyCalib Mlx90640.cam 768 (none : Option ℝ))
    (resolutionCorrection .eighteen .nineteen) 1 ram common (by show (-3168 : Int) ≠ 0; decide)
    (by show -32768 ≤ ram.vddPixel - (-12544) ∧ ram.vddPixel - (-12544) ≤ 32767; omega) h).1
  rw [hrc] at e ⊢
  have h1 : ((toyCalib Mlx90640.cam 768 (none : Option ℝ)).vdd25 : ℝ) = -12544 := by
    show ((-12544 : Int) : ℝ) = _; norm_num
  have h2 : ((toyCalib Mlx90640.cam 768 (none : Option ℝ)).kVdd : ℝ) = -3168 := by
    show ((-3168 : Int) : ℝ) = _; norm_num
  rw [h1, h2] at e
  norm_num at e ⊢
  linarith

example : ∃ common, CommonIrData.new (F := ℝ) (ε := LibErr) .checked
    (resolutionCorrection .eighteen .nineteen) 1 (toyCalib Mlx90640.cam 768 none) toyRam = .ok common :=
  ⟨_, rfl⟩

/-- **C56.** In exact arithmetic, `per_pixel_temperature` inverts the radiation law. With a positive
sensitivity `α`, the first-order estimate `est = ⁴√(V/α + T_ar) − 273.15` of the object temperature, and the
effective sensitivity `α (1 + K_s_to * est)` (non-zero), the function returns `T_o − 273.15`, `T_o ≥ 0` in
kelvin, exactly when the signal is `V = α (1 + K_s_to * est) (T_o⁴ − T_ar)`. -/
theorem C56_inverts_radiation_law (v alpha tar kSTo tO : ℝ) (ha : 0 < alpha) (h0 : 0 ≤ v / alpha + tar)
    (hT : 0 ≤ tO) :
    let est := (v / alpha + tar) ^ (1 / 4 : ℝ) - 273.15
    let eff := alpha * (1 + kSTo * est)
    eff ≠ 0 → 0 ≤ v / eff + tar →
    (perPixelTemperature v alpha tar kSTo = tO - 273.15 ↔ v = eff * (tO ^ 4 - tar)) := by
  intro est eff hne hpos
  rw [perPixelTemperature_real]
  unfold Datasheet.object
  have e1 : alpha ^ 3 * v + alpha ^ 4 * tar = alpha ^ 4 * (v / alpha + tar) := by
    field_simp
  have e2 : (alpha ^ 4 * (v / alpha + tar)) ^ (1 / 4 : ℝ) = alpha * (v / alpha + tar) ^ (1 / 4 : ℝ) := by
    rw [Real.mul_rpow (by positivity) h0]
    congr 1
    rw [← Real.rpow_natCast alpha 4, ← Real.rpow_mul ha.le]
    norm_num
  have e3 : alpha * (1 - kSTo * 273.15) + kSTo * (alpha ^ 3 * v + alpha ^ 4 * tar) ^ (1 / 4 : ℝ) = eff := by
    rw [e1, e2]
    simp only [eff, est]
    ring
  simp only [e3]
  have e4 : ∀ x : ℝ, 0 ≤ x → (x ^ (1 / 4 : ℝ) = tO ↔ x = tO ^ 4) := by
    intro x hx
    constructor
    · intro h
      rw [← h, ← Real.rpow_natCast, ← Real.rpow_mul hx]
      norm_num
    · intro h
      rw [h, ← Real.rpow_natCast tO 4, ← Real.rpow_mul hT]
      norm_num
  constructor
  · intro h
    have h' : (v / eff + tar) ^ (1 / 4 : ℝ) = tO := by linarith
    have := (e4 _ hpos).1 h'
    field_simp at this
    rw [← eq_sub_iff_add_eq] at this
    rw [this]; ring
  · intro h
    have h' : v / eff + tar = tO ^ 4 := by
      rw [h]; field_simp; ring
    rw [(e4 _ hpos).2 h']

/-- **C56 (zero signal).** With emissivity 1, a pixel without signal is reported at the ambient temperature,
for every sensitivity and slope. -/
theorem C56_zero_signal_is_ambient (alpha kSTo tA tR : ℝ) (h : -273.15 ≤ tA) :
    perPixelTemperature 0 alpha (tAr tA tR 1) kSTo = tA := by
  rw [perPixelTemperature_real, tAr_real]
  unfold Datasheet.object Datasheet.reflected
  simp only [zero_div, div_one, zero_add]
  have : (tR + 273.15) ^ 4 - ((tR + 273.15) ^ 4 - (tA + 273.15) ^ 4) = (tA + 273.15) ^ 4 := by ring
  rw [this, ← Real.rpow_natCast, ← Real.rpow_mul (by linarith)]
  norm_num

/-- The hypotheses of `C56_inverts_radiation_law` met without slope: `α = 1`, ambient 0 K, object 2 K. -/
example : let est := ((16 : ℝ) / 1 + 0) ^ (1 / 4 : ℝ) - 273.15
    let eff := (1 : ℝ) * (1 + 0 * est)
    eff ≠ 0 ∧ 0 ≤ (16 : ℝ) / eff + 0 ∧ (16 : ℝ) = eff * (2 ^ 4 - 0) := by
  intro est eff
  have : eff = 1 := by simp [eff]
  rw [this]; norm_num

end Mlx.Props
