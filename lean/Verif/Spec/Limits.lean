import Verif.Spec.Drift
import Verif.Spec.Special
import Verif.Spec.Cold
/-
What no image can contain: temperatures below absolute zero, and numbers where a division by zero was made.
-/
set_option autoImplicit false
namespace Mlx.Spec
open Mlx F32Ops

section
variable {F : Type} [F32Ops F] [Binary32 F]

/-- An infinity, NaN, or a temperature (in degrees Celsius) that is not below absolute zero. -/
def NotBelowZero (a : F) : Prop := ∀ x, Is a x → -273.15 ≤ x

/-- Whatever `new` has that `old` did not have there, is not below absolute zero. -/
def AddsNoneBelowZero (old new : List F) : Prop := ∀ (i : Nat) (v : F), new[i]? = some v → old[i]? = some v ∨ NotBelowZero v
end

/-- Fourth roots are not negative (and never finite of a negative number, C17 F.10.4.4). -/
class Binary32Roots (F : Type) [F32Ops F] [Binary32 F] : Prop where
  root_nonneg : ∀ (a b : F) (x : ℝ), Binary32.val b = some (1 / 4) → Is (powf a b) x → 0 ≤ x

/-- Further operations from which nothing comes back to the finite numbers (IEEE 754, 6.1 and 6.2: zero times infinity is NaN; the fourth power of
an infinity or NaN is one as well). -/
class Binary32Lost (F : Type) [F32Ops F] [Binary32 F] : Prop extends Binary32Special F where
  mul_right : ∀ a b : F, Binary32.val b = none → Binary32.val (a *. b) = none
  power : ∀ a : F, Binary32.val a = none → Binary32.val (powi a 4) = none

end Mlx.Spec
