import Mathlib.Analysis.SpecialFunctions.Pow.Real
import Verif.Spec.Thermometer
/-
What IEEE 754 says about binary32 arithmetic (round to nearest), as far as the theorems about rounding need it. No tie
rule, no signed zeros, and nothing about infinities and NaN other than that they are not finite numbers
and equal none.
-/
set_option autoImplicit false
namespace Mlx.Spec
open Mlx F32Ops

/-- The finite binary32 numbers: an integer of 24 bits times a power of two. -/
def Binary32Value (x : ℝ) : Prop :=
  ∃ m e : ℤ, |m| < 2 ^ 24 ∧ -149 ≤ e ∧ e ≤ 104 ∧ x = m * (2 : ℝ) ^ e

/-- The largest of them. -/
noncomputable def maxBinary32 : ℝ := (2 ^ 24 - 1) * 2 ^ 104

/-- `r` is the correctly rounded `z` (`none` stands for anything but a finite number): if `z` is in range, no finite
binary32 number is nearer to `z` than `r`. -/
def Rounds (z : ℝ) (r : Option ℝ) : Prop :=
  |z| ≤ maxBinary32 → ∃ w, r = some w ∧ Binary32Value w ∧ ∀ v, Binary32Value v → |w - z| ≤ |v - z|

/-- The operations are those of binary32: literals, conversions from integers and the basic operations are correctly
rounded (IEEE 754, 4.3 and 5.4); `recip` is `1.0 / x`; changing the sign and comparing are exact, and no finite number
equals an infinity or NaN (5.11); and `exp2` of an
integer is exact if the result is a binary32 number (true of the C library and of the `libm` crate, though not demanded
by IEEE 754). Nothing is said about `powi` and `powf`. -/
class Binary32 (F : Type) [F32Ops F] where
  /-- The value of a finite number, `none` for infinities and NaN. -/
  val : F → Option ℝ
  val_value : ∀ a x, val a = some x → Binary32Value x
  lit_rounds : ∀ q : Rat, Rounds q (val (lit q))
  ofInt_rounds : ∀ z : Int, Rounds z (val (ofInt z))
  add_rounds : ∀ a b x y, val a = some x → val b = some y → Rounds (x + y) (val (a +. b))
  sub_rounds : ∀ a b x y, val a = some x → val b = some y → Rounds (x - y) (val (a -. b))
  mul_rounds : ∀ a b x y, val a = some x → val b = some y → Rounds (x * y) (val (a *. b))
  div_rounds : ∀ a b x y, val a = some x → val b = some y → y ≠ 0 → Rounds (x / y) (val (a /. b))
  recip_rounds : ∀ a x, val a = some x → x ≠ 0 → Rounds x⁻¹ (val (recip a))
  neg_exact : ∀ a x, val a = some x → val (neg a) = some (-x)
  exp2_exact : ∀ (a : F) (n : ℤ), val a = some (n : ℝ) → Binary32Value ((2 : ℝ) ^ n) → val (exp2 a) = some ((2 : ℝ) ^ n)
  feq_exact : ∀ a b x y, val a = some x → val b = some y → (feq a b = true ↔ x = y)
  feq_finite : ∀ a b y, val a = none → val b = some y → feq a b = false

variable {F : Type} [F32Ops F] [Binary32 F]

/-- The number `a` is finite and its value is exactly `x`. -/
def Is (a : F) (x : ℝ) : Prop := Binary32.val a = some x

/-- The number `a` is finite and its value is within `err` of `x`. -/
def Within (a : F) (x err : ℝ) : Prop := ∃ y, Is a y ∧ |y - x| ≤ err

/-- The calibration `k`, held in binary32 numbers, is the table `t` without any rounding error, except for the supply
voltage constant `vdd0`, the sensitivities `alpha` and the corrections of the temperature ranges (of which this says
nothing). -/
structure ExactTable (k : Calib F) (t : Calib ℝ) : Prop where
  cam : k.cam = t.cam
  kVdd : k.kVdd = t.kVdd
  vdd25 : k.vdd25 = t.vdd25
  resolution : k.resolution = t.resolution
  kVptat : Is k.kVptat t.kVptat
  kTptat : Is k.kTptat t.kTptat
  vptat25 : Is k.vptat25 t.vptat25
  alphaPtat : Is k.alphaPtat t.alphaPtat
  gain : Is k.gain t.gain
  kSTa : Is k.kSTa t.kSTa
  cornerTemps : k.cornerTemps = t.cornerTemps
  kSTo : List.Forall₂ Is k.kSTo t.kSTo
  emissivity : Option.Rel Is k.emissivity t.emissivity
  offsetRef : ∀ s, k.offsetRef s = t.offsetRef s
  offsetRefCp : ∀ s, k.offsetRefCp s = t.offsetRefCp s
  alphaCp : ∀ s, Is (k.alphaCp s) (t.alphaCp s)
  kV : ∀ s, List.Forall₂ Is (k.kV s) (t.kV s)
  kVCp : ∀ s, Is (k.kVCp s) (t.kVCp s)
  kTa : ∀ s, List.Forall₂ Is (k.kTa s) (t.kTa s)
  kTaCp : ∀ s, Is (k.kTaCp s) (t.kTaCp s)
  tgc : Option.Rel Is k.tgc t.tgc
  apComp : ∀ a, List.Forall₂ (Option.Rel Is) (k.apComp a) (t.apComp a)
  apCompCp : ∀ s a, Option.Rel Is (k.apCompCp s a) (t.apCompCp s a)
  failed : k.failed = t.failed
  outlier : k.outlier = t.outlier

/-- The scales of an MLX90641 EEPROM are moderate: the exponents of `Ks_To` and of the compensation pixel's sensitivity
are at most 104 (11-bit words could hold up to 2047), and the second exponents of `K_Ta` and `K_V` at most 18 (five bits
could hold up to 31). -/
def ModerateScales (D : Nat → BitVec 11) : Prop :=
  (D 0x2434).toNat ≤ 104 ∧ (D 0x242E).toNat ≤ 104 ∧ (D 0x2416).toNat % 32 ≤ 18 ∧ (D 0x2418).toNat % 32 ≤ 18

/-- Readings and parameters for which the ambient temperature is well conditioned: no division by zero, positive PTAT and
non-negative V_BE readings, and a supply voltage whose influence on the PTAT voltage is at most one half. -/
structure Plausible (t : Calib ℝ) (r : RamData) : Prop where
  vdd : Fits16 (r.vddPixel - t.vdd25)
  kVdd : t.kVdd ≠ 0
  kTptat : t.kTptat ≠ 0
  alphaPtat : 0 < t.alphaPtat
  ptat : 0 < r.tAPtat ∧ r.tAPtat ≤ 32767
  vbe : 0 ≤ r.tAVbe ∧ r.tAVbe ≤ 32767
  voltage : |t.kVptat * Datasheet.deltaV t r| ≤ 1 / 2

/-- The compensated PTAT voltage in the formula of the ambient temperature. -/
noncomputable def ptatVoltage (t : Calib ℝ) (r : RamData) : ℝ :=
  (r.tAPtat : ℝ) / (r.tAPtat * t.alphaPtat + r.tAVbe) * 2 ^ 18 / (1 + t.kVptat * Datasheet.deltaV t r)

/-- The claim of C70, for a calibration `k` and the documented table `t`: computing with binary32 numbers, the supply
voltage and the ambient temperature are within the given distances of the documented values, and the ambient temperature
is what comes with an image. -/
def Accurate (m : Mode) (k : Calib F) (t : Calib ℝ) : Prop :=
  ∀ (r : RamData), Plausible t r → ∀ actual : Resolution,
    let ρ : ℝ := 2 ^ CtrlField.resolution.code t.resolution / 2 ^ CtrlField.resolution.code actual
    let nearAmbient := fun tA : F => Within tA (Datasheet.ambient t r)
      ((|ptatVoltage t r| / |t.kTptat| + |Datasheet.ambient t r| + 50) / 2 ^ 20)
    (∃ dV : F, deltaV (ε := Unit) m k r.vddPixel = .ok dV ∧
      Within (vDd k (resolutionCorrection k.resolution actual) dV) (Datasheet.supply t ρ r)
        ((|ρ * Datasheet.deltaV t r| + 3.3) / 2 ^ 22) ∧
      nearAmbient (ambientTemperature k (vPtatArt k r.tAPtat r.tAVbe) dV)) ∧
    ∀ (em : F) (tR : Option F) (pixels : List Byte) (s : Subpage) (a : AccessPattern) (valid : List Bool)
      (dest dest' : List F) (tA : F),
      (rawPixelsToIrData (ε := Unit) m k em (resolutionCorrection k.resolution actual) pixels r s a valid dest =
        .ok (tA, dest') → nearAmbient tA) ∧
      (rawPixelsToTemperatures (ε := Unit) m k em tR (resolutionCorrection k.resolution actual) pixels r s a valid dest =
        .ok (tA, dest') → nearAmbient tA)

/-! ### The signal of a pixel -/

/-- The bounds of C70 for the ambient temperature and the supply voltage. -/
noncomputable def ambientError (t : Calib ℝ) (r : RamData) : ℝ :=
  (|ptatVoltage t r| / |t.kTptat| + |Datasheet.ambient t r| + 50) / 2 ^ 20
noncomputable def supplyError (t : Calib ℝ) (ρ : ℝ) (r : RamData) : ℝ := (|ρ * Datasheet.deltaV t r| + 3.3) / 2 ^ 22

/-- Readings for which the signals are well conditioned: plausible ones, with a gain reading other than zero, an ambient
temperature and a supply voltage that are not absurd, and an error of the ambient temperature of at most 1/4 °C. -/
structure Readable (t : Calib ℝ) (ρ : ℝ) (r : RamData) : Prop where
  plausible : Plausible t r
  gain : r.gain ≠ 0 ∧ Fits16 r.gain
  compensationPixel : Fits16 r.compensationPixel
  ambient : |Datasheet.ambient t r| ≤ 1000
  supply : |Datasheet.supply t ρ r| ≤ 1000
  precise : ambientError t r ≤ 1 / 4

/-- How far rounding can take the signal of a (compensation) pixel from the documented value: a few units in the last
place of the terms of the documented formula, and what the errors of ambient temperature and supply voltage make of the
compensated offset. -/
noncomputable def signalError (t : Calib ℝ) (ρ ε : ℝ) (r : RamData) (raw offset : Int) (kV kTa comp : ℝ) : ℝ :=
  let a := 1 + |kTa| * (|Datasheet.ambient t r - 25| + 1)
  let b := 1 + |kV| * (|Datasheet.supply t ρ r - 3.3| + 1)
  let n := |(offset : ℝ)| + 1
  (8 / 2 ^ 24 * (|raw * (t.gain / r.gain)| + |comp|) +
    2 * n * (b * |kTa| * ambientError t r + a * |kV| * supplyError t ρ r) + 32 / 2 ^ 24 * (n * a * b)) / |ε|

/-- The same with thermal gradient compensation. -/
noncomputable def compensatedError (t : Calib ℝ) (ρ ε : ℝ) (r : RamData) (s : Subpage) (a : AccessPattern)
    (raw offset : Int) (kV kTa comp : ℝ) : ℝ :=
  2 * (signalError t ρ ε r raw offset kV kTa comp + |t.tgc.getD 0| *
    signalError t ρ ε r r.compensationPixel (t.offsetRefCp s) (t.kVCp s) (t.kTaCp s) ((t.apCompCp s a).getD 0))

/-- The claim of C71: every element of a raw image computed with binary32 numbers is within `compensatedError` of the
documented signal of its pixel. `t` is the documented table of parameters; `em` holds the emissivity `ε`. -/
def SignalAccurate (m : Mode) (k : Calib F) (t : Calib ℝ) : Prop :=
  ∀ (r : RamData) (actual : Resolution) (em : F) (ε : ℝ) (pixels : List Byte) (s : Subpage) (a : AccessPattern)
    (valid : List Bool) (dest out : List F) (tA : F),
    let ρ : ℝ := 2 ^ CtrlField.resolution.code t.resolution / 2 ^ CtrlField.resolution.code actual
    Readable t ρ r → Is em ε → 1 / 2 ^ 20 ≤ |ε| → |ε| ≤ 2 ^ 20 →
    rawPixelsToIrData (ε := Unit) m k em (resolutionCorrection k.resolution actual) pixels r s a valid dest =
      .ok (tA, out) →
    ∀ (i : Nat) (hi lo : Byte) (offset : Int) (kV kTa : ℝ) (comp : Option ℝ),
      valid[i]? = some true → i < dest.length → pixels[2 * i]? = some hi → pixels[2 * i + 1]? = some lo →
      (t.offsetRef s)[i]? = some offset → (t.kV s)[i]? = some kV → (t.kTa s)[i]? = some kTa →
      (t.apComp a)[i]? = some comp →
      ∃ v : F, out[i]? = some v ∧
        Within v (Datasheet.compensatedSignal t ρ ε r s a (be16 hi lo).toInt offset kV kTa (comp.getD 0))
          (compensatedError t ρ ε r s a (be16 hi lo).toInt offset kV kTa (comp.getD 0))

end Mlx.Spec
