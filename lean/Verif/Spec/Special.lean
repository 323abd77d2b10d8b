import Verif.Spec.Broken
/-
What IEEE 754 says about infinities and NaN, as far as pixels without any sensitivity need it.
-/
set_option autoImplicit false
namespace Mlx.Spec
open Mlx F32Ops

/-- Operations on infinities and NaN (IEEE 754, 6.1 and 6.2; 7.3 for the division by zero), and powers and roots of zero: nothing comes back to
the finite numbers by adding, by subtracting a number, by dividing or by taking the fourth root (that of -∞ is +∞, C17 F.10.4.4); dividing a
finite number by zero gives an infinity or NaN; the powers and the root of zero are zero. -/
class Binary32Special (F : Type) [F32Ops F] [Binary32 F] : Prop where
  add_left : ∀ a b : F, Binary32.val a = none → Binary32.val (a +. b) = none
  add_right : ∀ a b : F, Binary32.val b = none → Binary32.val (a +. b) = none
  sub_left : ∀ a b : F, Binary32.val a = none → Binary32.val (a -. b) = none
  div_left : ∀ a b : F, Binary32.val a = none → Binary32.val (a /. b) = none
  div_zero : ∀ a b : F, Binary32.val b = some 0 → Binary32.val (a /. b) = none
  root : ∀ a b : F, Binary32.val a = none → Binary32.val b = some (1 / 4) → Binary32.val (powf a b) = none
  root_zero : ∀ a b : F, Binary32.val a = some 0 → Binary32.val b = some (1 / 4) → Binary32.val (powf a b) = some 0
  power_zero : ∀ (a : F) (n : Nat), Binary32.val a = some 0 → n = 3 ∨ n = 4 → Binary32.val (powi a n) = some 0

/-- The factory marks a broken pixel of an MLX90641 by EEPROM words that hold the value 0. -/
def Mlx90641Memory.broken (D : Nat → BitVec 11) (i : Nat) : Prop := ∀ a ∈ Ee641.pixelAddresses i, D a = 0#11

/-- The EEPROM of the MLX90641 asks for no thermal gradient compensation: the coefficient, nine bits of the word 0x2433, is zero. -/
def Mlx90641Memory.withoutGradient (D : Nat → BitVec 11) : Prop := (D 0x2433).toNat % 2 ^ 9 = 0

variable {F : Type} [F32Ops F] [Binary32 F]

/-- An infinity or NaN. -/
def NotFinite (a : F) : Prop := Binary32.val a = none

end Mlx.Spec
