import Verif.Spec.Examples
import Verif.Spec.Register
/-
The quick start of the crate's documentation.
-/
set_option autoImplicit false
namespace Mlx.Spec
open Mlx

/-- The frame rate in the control register of a camera with the memory `M`. -/
def rateSet (M : Word → Word) : FrameRate := CtrlField.frameRate.valueIn (M 0x800D#16)

end Mlx.Spec
