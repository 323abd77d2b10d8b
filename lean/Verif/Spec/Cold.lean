import Verif.Spec.Object
import Verif.Spec.Usual
/-
Signals that no object warmer than absolute zero could give, and NaN.
-/
set_option autoImplicit false
namespace Mlx.Spec
open Mlx F32Ops

section
variable {F : Type} [F32Ops F]

/-- NaN is what does not equal itself (IEEE 754, 5.11; this is how Rust's `is_nan` is defined). -/
def IsNaN (a : F) : Prop := feq a a = false
end

/-- What comes of NaN (IEEE 754, 6.2: the basic operations return NaN when an operand is; C17 F.10.4.4: so does the power, unless the exponent is
zero or the base is one), and where it comes from: the fourth root of a negative number. -/
class Binary32NaN (F : Type) [F32Ops F] [Binary32 F] : Prop where
  add_left : ∀ a b : F, IsNaN a → IsNaN (a +. b)
  add_right : ∀ a b : F, IsNaN b → IsNaN (a +. b)
  sub_left : ∀ a b : F, IsNaN a → IsNaN (a -. b)
  mul_right : ∀ a b : F, IsNaN b → IsNaN (a *. b)
  div_right : ∀ a b : F, IsNaN b → IsNaN (a /. b)
  root : ∀ a b : F, IsNaN a → Binary32.val b = some (1 / 4) → IsNaN (powf a b)
  root_negative : ∀ (a b : F) (x : ℝ), Binary32.val a = some x → x < 0 → Binary32.val b = some (1 / 4) → IsNaN (powf a b)

/-- How far rounding can take the fourth powers of the two estimates of the object's absolute temperature, in relation to the radiation of the
surroundings (the numerators of `firstError` and `fourthPowerError`). -/
noncomputable def firstMargin (v α tar ηv ηα ηr δ : ℝ) : ℝ := 2 * ηv + 2 * ηr + 5 * (1 + |contrast v α tar|) * (ηα + δ)
noncomputable def secondMargin (v α tar k ηv ηα ηr δ : ℝ) : ℝ :=
  3 / 2 * ((ηv + |trueContrast v α tar k| * divisorError v α tar ηv ηα ηr δ) / slopeFactor v α tar k) + 2 * ηr +
    3 * δ * (1 + |trueContrast v α tar k|)

/-- A signal that is more negative than that of an object at absolute zero, by more than rounding can hide: already according to the first
estimate, or only according to the second, in which the sensitivity is corrected. -/
structure ColderThanZero (v α tar k ηv ηα ηr δ : ℝ) : Prop where
  sensitivity : 1 / 2 ^ 30 ≤ α ∧ α ≤ 2 ^ 16
  radiation : 2 ^ 20 ≤ tar ∧ tar ≤ 2 ^ 44
  contrast : |contrast v α tar| ≤ 2 ^ 10
  errors : ηv ≤ 1 / 2 ^ 10 ∧ ηα ≤ 1 / 2 ^ 10 ∧ ηr ≤ 1 / 2 ^ 10
  cold : 1 + Spec.contrast v α tar < -firstMargin v α tar ηv ηα ηr δ ∨
    (0 < 1 + Spec.contrast v α tar ∧ |k| * 273.15 ≤ 1 / 2 ∧ |k| * firstEstimate v α tar ≤ 1 / 2 ∧
      firstError v α tar ηv ηα ηr δ ≤ 1 / 2 ∧ divisorError v α tar ηv ηα ηr δ ≤ slopeFactor v α tar k / 4 ∧
      1 + trueContrast v α tar k < -secondMargin v α tar k ηv ηα ηr δ)

/-- The same of a pixel, in a frame that can be evaluated, with sensor and surroundings warmer than 200 K. -/
def PixelInputs.Frozen (p : PixelInputs) (δ : ℝ) : Prop :=
  p.Evaluable ∧ p.Warm ∧
    ColderThanZero p.signal p.sensitivity p.radiation p.kSTo p.relativeSignalError p.relativeSensitivityError (p.relativeRadiationError δ) δ

/-- A usual scene, except that the signal is that of an object which lacks more than what the surroundings radiate, by one per cent. -/
def PixelInputs.UsuallyFrozen (p : PixelInputs) : Prop :=
  p.UsualScene ∧ p.signal ≤ -1.01 * (p.sensitivity * p.radiation)

end Mlx.Spec
