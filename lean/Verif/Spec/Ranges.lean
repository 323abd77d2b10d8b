import Verif.Spec.Locality
/-
The words of the EEPROM that describe temperature ranges other than the one the images are computed for.
-/
set_option autoImplicit false
namespace Mlx.Spec
open Mlx

/-- The words of an MLX90640 with the coefficients of the temperature ranges: K_s_To1 and K_s_To2 (0x243D), K_s_To3 and K_s_To4 (0x243E),
the corner temperatures CT3 and CT4, their step and the scale of the K_s_To (0x243F). -/
def ranges640 : List Word := [0x243D#16, 0x243E#16, 0x243F#16]

/-- Two memories agree on the coefficient of the basic range of an MLX90640 (0 °C to CT3): K_s_To2 and its scale. -/
def SameBasic640 (M N : Word → Word) : Prop :=
  (M 0x243D#16).toNat / 256 = (N 0x243D#16).toNat / 256 ∧ (M 0x243F#16).toNat % 16 = (N 0x243F#16).toNat % 16

/-- The words of an MLX90641 with the coefficients of the temperature ranges other than the basic one (0 °C to 80 °C): K_s_To1, K_s_To2,
K_s_To4 to K_s_To8, CT6 to CT8. (The scale of the K_s_To is at 0x2434, K_s_To3 at 0x2437.) -/
def ranges641 : List Word :=
  [0x2435#16, 0x2436#16, 0x2438#16, 0x2439#16, 0x243A#16, 0x243B#16, 0x243C#16, 0x243D#16, 0x243E#16, 0x243F#16]

end Mlx.Spec
