import Verif.Spec.Nearness
/-
Objects that follow the law of the sensor.
-/
set_option autoImplicit false
namespace Mlx.Spec
open Mlx

/-- The pixel looks at an object of `To` degrees that follows the law of the sensor: its signal is
`sensitivity * (1 + Ks_To * To) * ((To + 273.15)⁴ - T_a-r)`. The object has between 0 and 100 °C, the surroundings count as having
between -10 and 60 °C, and the slope of the sensitivity is at most 0.00085 per degree. -/
structure PixelInputs.Sees (p : PixelInputs) (To : ℝ) : Prop where
  sensitive : 0 < p.sensitivity
  law : p.signal = p.sensitivity * (1 + p.kSTo * To) * ((To + 273.15) ^ 4 - p.radiation)
  object : 0 ≤ To ∧ To ≤ 100
  surroundings : (-10 + 273.15) ^ 4 ≤ p.radiation ∧ p.radiation ≤ (60 + 273.15) ^ 4
  slope : |p.kSTo| ≤ 0.00085

end Mlx.Spec
