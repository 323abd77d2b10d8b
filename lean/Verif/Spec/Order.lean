import Verif.Spec.Binary32
/-
The order of binary32 numbers, and when the documented temperature grows with the signal.
-/
set_option autoImplicit false
namespace Mlx.Spec
open Mlx F32Ops

/-- More about binary32 (IEEE 754, 4.3: "every operation shall be performed as if it first produced an intermediate result
correct to infinite precision and with unbounded range, and then rounded that intermediate result"): the result of an
operation on finite numbers is a function of the exact result, and this function preserves order (where its values are
finite). And (6.1, 6.2) sums, differences and products with an operand that is not finite are not finite, neither are quotients
whose dividend is not finite. -/
class Binary32Order (F : Type) [F32Ops F] [Binary32 F] where
  rounding : ℝ → Option ℝ
  monotone : ∀ x y u v, x ≤ y → rounding x = some u → rounding y = some v → u ≤ v
  ofInt_eq : ∀ z : Int, Binary32.val (ofInt z : F) = rounding z
  add_eq : ∀ (a b : F) x y, Is a x → Is b y → Binary32.val (a +. b) = rounding (x + y)
  sub_eq : ∀ (a b : F) x y, Is a x → Is b y → Binary32.val (a -. b) = rounding (x - y)
  mul_eq : ∀ (a b : F) x y, Is a x → Is b y → Binary32.val (a *. b) = rounding (x * y)
  div_eq : ∀ (a b : F) x y, Is a x → Is b y → y ≠ 0 → Binary32.val (a /. b) = rounding (x / y)
  add_finite : ∀ (a b : F) z, Is (a +. b) z → (∃ x, Is a x) ∧ ∃ y, Is b y
  sub_finite : ∀ (a b : F) z, Is (a -. b) z → (∃ x, Is a x) ∧ ∃ y, Is b y
  mul_finite : ∀ (a b : F) z, Is (a *. b) z → (∃ x, Is a x) ∧ ∃ y, Is b y
  div_finite : ∀ (a b : F) z, Is (a /. b) z → ∃ x, Is a x

/-- A signal `v` for which the documented temperature grows with the signal: the first estimate of the object's temperature
(without slope) is between 220 K and 1000 K. -/
def Measured (v α tar : ℝ) : Prop := 220 ^ 4 ≤ v / α + tar ∧ v / α + tar ≤ 1000 ^ 4

end Mlx.Spec
