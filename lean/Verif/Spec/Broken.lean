import Verif.Spec.Usual
/-
Pixels that the factory marked as broken.
-/
set_option autoImplicit false
namespace Mlx.Spec
open Mlx

/-- The factory marks a broken pixel of an MLX90640 by an EEPROM word 0, so that only the parameters of its row and column are left. -/
def Mlx90640Memory.broken (M : Word → Word) (i : Nat) : Prop := eepromOf M (0x2440 + i) = 0#16

/-- The sensitivity that the EEPROM stores for the row and the column of pixel `i`, as an integer that is yet to be scaled; typically some ten
thousand. -/
def Mlx90640Memory.bulkSensitivity (M : Word → Word) (i : Nat) : Int :=
  Ee640.alphaAverage (eepromOf M) + Ee640.alphaRow (eepromOf M) i + Ee640.alphaCol (eepromOf M) i

/-- The temperature that the surroundings count as having: a black body of that temperature radiates as much as what the sensor sees
reflected and emitted around the object. With an emissivity of 1 it is the ambient temperature. -/
noncomputable def PixelInputs.radiantTemperature (p : PixelInputs) : ℝ := p.radiation ^ (1 / 4 : ℝ) - 273.15

end Mlx.Spec
