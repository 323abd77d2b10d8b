import Verif.Spec.Binary32
/-
Accuracy of object temperatures computed with binary32 numbers: what is assumed of `powi` and `powf`, and how large the
error can be.
-/
set_option autoImplicit false
namespace Mlx.Spec
open Mlx F32Ops

/-- The third and fourth powers and the fourth roots that the crate computes have relative errors of at most `δ`, as long
as the exact result is a normal number. (Rust leaves the precision of `powi` and `powf` open. Correct rounding is
`δ = 2⁻²⁴`; repeated multiplication and the usual mathematical libraries are well below `2⁻²²`.) -/
structure AccuratePowers (F : Type) [F32Ops F] [Binary32 F] (δ : ℝ) : Prop where
  unit : 1 / 2 ^ 24 ≤ δ
  small : δ ≤ 1 / 2 ^ 16
  powi : ∀ (a : F) (x : ℝ) (n : Nat), Is a x → n = 3 ∨ n = 4 → (2 : ℝ) ^ (-126 : ℤ) ≤ |x ^ n| → |x ^ n| ≤ maxBinary32 →
    Within (F32Ops.powi a n) (x ^ n) (δ * |x ^ n|)
  powf : ∀ (a b : F) (x : ℝ), Is a x → Is b (1 / 4) → (2 : ℝ) ^ (-126 : ℤ) ≤ x →
    Within (F32Ops.powf a b) (x ^ (1 / 4 : ℝ)) (δ * x ^ (1 / 4 : ℝ))

/-! ### How far rounding can take the object temperature

All of these are bounds stated in terms of the documented (exact) quantities: the signal `v`, the sensitivity `α`, the
radiation `tar` (`T_a-r`, in K⁴), the slope `k` (`Ks_To` of the basic range) and the emissivity `ε`. -/

/-- The signal in relation to that of the surroundings: the documented first estimate of the object's temperature is
`(tar * (1 + contrast))^(1/4)` kelvins. -/
noncomputable def contrast (v α tar : ℝ) : ℝ := v / (α * tar)
noncomputable def firstEstimate (v α tar : ℝ) : ℝ := (tar * (1 + contrast v α tar)) ^ (1 / 4 : ℝ)

/-- The correction of the sensitivity at the first estimate, and the contrast with this correction. -/
noncomputable def slopeFactor (v α tar k : ℝ) : ℝ := 1 + k * (firstEstimate v α tar - 273.15)
noncomputable def trueContrast (v α tar k : ℝ) : ℝ := contrast v α tar / slopeFactor v α tar k

/-- Relative error of the fourth power of the first estimate, when the signal has the error `ηv * α * tar`, the sensitivity
the relative error `ηα` and the radiation `ηr`. -/
noncomputable def firstError (v α tar ηv ηα ηr δ : ℝ) : ℝ :=
  (2 * ηv + 2 * ηr + 5 * (1 + |contrast v α tar|) * (ηα + δ)) / (1 + contrast v α tar)

/-- Error of the corrected sensitivity, in relation to the sensitivity. -/
noncomputable def divisorError (v α tar ηv ηα ηr δ : ℝ) : ℝ :=
  2 * ηα + 8 * δ + firstError v α tar ηv ηα ηr δ / 5

/-- Relative error of the fourth power of the object temperature. -/
noncomputable def fourthPowerError (v α tar k ηv ηα ηr δ : ℝ) : ℝ :=
  (3 / 2 * ((ηv + |trueContrast v α tar k| * divisorError v α tar ηv ηα ηr δ) / slopeFactor v α tar k) + 2 * ηr +
    3 * δ * (1 + |trueContrast v α tar k|)) / (1 + trueContrast v α tar k)

/-- Error of the object temperature. -/
noncomputable def objectError (v α tar k ηv ηα ηr δ : ℝ) : ℝ :=
  (fourthPowerError v α tar k ηv ηα ηr δ / 2 + 3 * δ) * (Datasheet.object v α tar k + 273.15) + 3 * δ * 273.15

/-- A pixel whose temperature can be computed: the sensitivity and the radiation of the surroundings are in a sensible
range, the object is not colder than absolute zero, the correction of the sensitivity is moderate, and the errors of the
quantities that go in are small. -/
structure Measurable (v α tar k ηv ηα ηr δ : ℝ) : Prop where
  sensitivity : 1 / 2 ^ 30 ≤ α ∧ α ≤ 2 ^ 16
  radiation : 2 ^ 20 ≤ tar ∧ tar ≤ 2 ^ 44
  contrast : |contrast v α tar| ≤ 2 ^ 10
  firstPositive : 0 < 1 + Spec.contrast v α tar
  slope : |k| * 273.15 ≤ 1 / 2 ∧ |k| * firstEstimate v α tar ≤ 1 / 2
  positive : 0 < 1 + trueContrast v α tar k
  errors : ηv ≤ 1 / 2 ^ 10 ∧ ηα ≤ 1 / 2 ^ 10 ∧ ηr ≤ 1 / 2 ^ 10
  firstError : firstError v α tar ηv ηα ηr δ ≤ 1 / 2
  divisorError : divisorError v α tar ηv ηα ηr δ ≤ slopeFactor v α tar k / 4
  fourthPowerError : fourthPowerError v α tar k ηv ηα ηr δ ≤ 1 / 2

/-- A typical scene: the surroundings are colder than 127 °C, the object emits between half as much and half as much more
than they do, `Ks_To` is as small as in the datasheets, and no relative error is larger than `2⁻¹²`. -/
structure Typical (v α tar k ηv ηα ηr δ : ℝ) : Prop where
  sensitivity : 1 / 2 ^ 30 ≤ α ∧ α ≤ 2 ^ 16
  radiation : 2 ^ 20 ≤ tar ∧ tar ≤ 400 ^ 4
  contrast : |contrast v α tar| ≤ 1 / 2
  slope : |k| ≤ 1 / 1000
  errors : (0 ≤ ηv ∧ ηv ≤ 1 / 2 ^ 12) ∧ (0 ≤ ηα ∧ ηα ≤ 1 / 2 ^ 12) ∧ (0 ≤ ηr ∧ ηr ≤ 1 / 2 ^ 12) ∧ 0 ≤ δ ∧ δ ≤ 1 / 2 ^ 12

/-- Relative error of the sensitivity of a pixel whose documented parameter is `alpha`. -/
noncomputable def sensitivityError (t : Calib ℝ) (r : RamData) (s : Subpage) (alpha : ℝ) : ℝ :=
  let cp := t.tgc.getD 0 * t.alphaCp s
  2 * ((|alpha| + |cp|) / 2 ^ 21 / |alpha - cp| +
    (|t.kSTa| * ambientError t r + (1 + |t.kSTa| * (|Datasheet.ambient t r - 25| + 1)) / 2 ^ 22) /
      |1 + t.kSTa * (Datasheet.ambient t r - 25)|)

/-- Error of the fourth power of an absolute temperature of `x` kelvins that has the error `e`. -/
noncomputable def powerError (δ x e : ℝ) : ℝ := 6 * x ^ 3 * (e + 2 * δ * (x + 273.15))

/-- Relative error of the radiation `T_a-r`: ambient temperature `tA` (error `eA`), reflected temperature `tR` (error `eR`),
in °C. -/
noncomputable def reflectedError (δ ε tA eA tR eR : ℝ) : ℝ :=
  (powerError δ (tR + 273.15) eR + (powerError δ (tR + 273.15) eR + powerError δ (tA + 273.15) eA) / |ε|) /
    Datasheet.reflected tA tR ε

/-- Error of the temperature of the surroundings: none if the user gives it, otherwise it is derived from the ambient
temperature, which has the error `e`. -/
noncomputable def surroundingsError (e : ℝ) : Option ℝ → ℝ
  | some _ => 0
  | none => 2 * e

variable {F : Type} [F32Ops F] [Binary32 F]

/-- The claim of C74: every element of an image computed with binary32 numbers is within `objectError` of the documented
temperature of its pixel. `t` is the documented table of parameters; `em` holds the emissivity `ε`, and `tR` the reflected
temperature, if the user gives one. `δ` is the relative error of powers and roots. -/
def TemperatureAccurate (m : Mode) (k : Calib F) (t : Calib ℝ) (δ : ℝ) : Prop :=
  ∀ (r : RamData) (actual : Resolution) (em : F) (ε : ℝ) (tR : Option F) (given : Option ℝ) (pixels : List Byte)
    (s : Subpage) (a : AccessPattern) (valid : List Bool) (dest out : List F) (tA : F),
    let ρ : ℝ := 2 ^ CtrlField.resolution.code t.resolution / 2 ^ CtrlField.resolution.code actual
    let T := Datasheet.ambient t r
    let S := given.getD (T - t.cam.selfHeating)
    Readable t ρ r → Is em ε → 1 / 2 ^ 20 ≤ |ε| → |ε| ≤ 2 ^ 20 → Option.Rel Is tR given →
    200 ≤ T + 273.15 → 200 ≤ S + 273.15 → S + 273.15 ≤ 2 ^ 11 →
    rawPixelsToTemperatures (ε := Unit) m k em tR (resolutionCorrection k.resolution actual) pixels r s a valid dest =
      .ok (tA, out) →
    ∀ (i : Nat) (hi lo : Byte) (offset : Int) (kV kTa alpha K : ℝ) (comp : Option ℝ),
      valid[i]? = some true → i < dest.length → pixels[2 * i]? = some hi → pixels[2 * i + 1]? = some lo →
      (t.offsetRef s)[i]? = some offset → (t.kV s)[i]? = some kV → (t.kTa s)[i]? = some kTa →
      (t.alpha s)[i]? = some alpha → (t.apComp a)[i]? = some comp → t.kSTo[t.cam.basicRange]? = some K →
      let V := Datasheet.compensatedSignal t ρ ε r s a (be16 hi lo).toInt offset kV kTa (comp.getD 0)
      let α := Datasheet.sensitivity t r s alpha
      let R := Datasheet.reflected T S ε
      let ηv := compensatedError t ρ ε r s a (be16 hi lo).toInt offset kV kTa (comp.getD 0) / (α * R)
      let ηα := sensitivityError t r s alpha
      let ηr := reflectedError δ ε T (ambientError t r) S (surroundingsError (ambientError t r) given)
      Measurable V α R K ηv ηα ηr δ →
      ∃ v : F, out[i]? = some v ∧ Within v (Datasheet.object V α R K) (objectError V α R K ηv ηα ηr δ)

end Mlx.Spec
