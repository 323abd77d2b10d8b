import Mathlib.Analysis.SpecialFunctions.Pow.Real
import Verif.Model.Float
/-
Exact real arithmetic as an instance of the floating-point interface. Theorems that speak about numeric values
(rather than data flow) use it; they say what the code computes up to rounding.
-/
set_option autoImplicit false
namespace Mlx.Spec
open Mlx

noncomputable instance realOps : F32Ops ℝ where
  lit q := (q : ℝ)
  ofInt z := (z : ℝ)
  add := (· + ·)
  sub := (· - ·)
  mul := (· * ·)
  div := (· / ·)
  neg := fun x => -x
  exp2 x := (2 : ℝ) ^ x
  recip x := x⁻¹
  powi x n := x ^ n
  powf x y := x ^ y
  feq x y := @decide (x = y) (Classical.propDecidable _)

end Mlx.Spec
