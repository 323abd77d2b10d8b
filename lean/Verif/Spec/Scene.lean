import Verif.Spec.Order
/-
When the settings of the scene (emissivity, reflected temperature) act on temperatures in the way a user expects.
-/
set_option autoImplicit false
namespace Mlx.Spec
open Mlx

/-- An ordinary measurement: positive sensitivity `α`, effective radiation `tar` of the surroundings (`T_a-r`, in K⁴) below
that at 400 K, a slope `k` (`Ks_To`) of at most 1/1000 per degree, and a first estimate of the object's temperature between
220 K and 1000 K. -/
structure Ordinary (v α tar k : ℝ) : Prop where
  sensitivity : 0 < α
  radiation : 0 ≤ tar ∧ tar ≤ 400 ^ 4
  slope : |k| ≤ 1 / 1000
  estimate : Measured v α tar

end Mlx.Spec
