import Verif.Spec.Real
import Verif.Spec.Calc
/-
The documented formulas (section 11.2.2 of the datasheets, as reproduced in the documentation comments of
`calculations.rs`), in ordinary real arithmetic. Written from the documentation, not from the code.
-/
set_option autoImplicit false
namespace Mlx.Spec.Datasheet
open Mlx

/-- `ΔV = (V_DD_pix − V_DD_25) / K_V_DD` (11.2.2.3). -/
noncomputable def deltaV (c : Calib ℝ) (r : RamData) : ℝ :=
  ((r.vddPixel : ℝ) - c.vdd25) / c.kVdd

/-- The supply voltage as the documentation's second line has it: `Resolution_corr * ΔV + V_DD_0`. -/
noncomputable def supply (c : Calib ℝ) (resCorr : ℝ) (r : RamData) : ℝ := resCorr * deltaV c r + c.vdd0

/-- The supply voltage as the documentation's first line and the datasheet (11.2.2.2) have it:
`(Resolution_corr * V_DD_pix − V_DD_25) / K_V_DD + V_DD_0`. -/
noncomputable def supplyDatasheet (c : Calib ℝ) (resCorr : ℝ) (r : RamData) : ℝ :=
  (resCorr * r.vddPixel - c.vdd25) / c.kVdd + c.vdd0

/-- Ambient temperature in °C (11.2.2.3). -/
noncomputable def ambient (c : Calib ℝ) (r : RamData) : ℝ :=
  let vPtatArt := (r.tAPtat : ℝ) / (r.tAPtat * c.alphaPtat + r.tAVbe) * 2 ^ 18
  (vPtatArt / (1 + c.kVptat * deltaV c r) - c.vptat25) / c.kTptat + 25

/-- The emissivity-compensated IR signal of a (compensation) pixel (11.2.2.5, 11.2.2.6): raw value `raw`,
reference offset `offset`, temperature and voltage coefficients, and interleaving compensation. -/
noncomputable def signal (c : Calib ℝ) (resCorr ε : ℝ) (r : RamData) (raw offset : Int) (kV kTa comp : ℝ) :
    ℝ :=
  (raw * (c.gain / r.gain) + comp
    - offset * (1 + kTa * (ambient c r - 25)) * (1 + kV * (supply c resCorr r - 3.3))) / ε

/-- The signal with thermal gradient compensation (11.2.2.7); no coefficient is the coefficient zero. -/
noncomputable def compensatedSignal (c : Calib ℝ) (resCorr ε : ℝ) (r : RamData) (s : Subpage)
    (a : AccessPattern) (raw offset : Int) (kV kTa comp : ℝ) : ℝ :=
  signal c resCorr ε r raw offset kV kTa comp
    - c.tgc.getD 0 * signal c resCorr ε r r.compensationPixel (c.offsetRefCp s) (c.kVCp s) (c.kTaCp s)
        ((c.apCompCp s a).getD 0)

/-- Normalised sensitivity (11.2.2.8). -/
noncomputable def sensitivity (c : Calib ℝ) (r : RamData) (s : Subpage) (alpha : ℝ) : ℝ :=
  (alpha - c.tgc.getD 0 * c.alphaCp s) * (1 + c.kSTa * (ambient c r - 25))

/-- `T_a-r` (11.2.2.9), with temperatures in °C. -/
noncomputable def reflected (tA tR ε : ℝ) : ℝ :=
  (tR + 273.15) ^ 4 - ((tR + 273.15) ^ 4 - (tA + 273.15) ^ 4) / ε

/-- Object temperature in °C (11.2.2.9). -/
noncomputable def object (v alpha tar kSTo : ℝ) : ℝ :=
  let sx := kSTo * (alpha ^ 3 * v + alpha ^ 4 * tar) ^ (1 / 4 : ℝ)
  (v / (alpha * (1 - kSTo * 273.15) + sx) + tar) ^ (1 / 4 : ℝ) - 273.15

end Mlx.Spec.Datasheet
