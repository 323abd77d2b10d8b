import Verif.Spec.Register

/-! What the public mutators of the registers can do, and what a write mask is for. -/
set_option autoImplicit false

namespace Mlx.Spec
open Mlx

/-- `s'` is `s` after one call of a public mutator of the status register. -/
inductive StatusEdit (s : StatusReg) : StatusReg → Prop
  | resetNewData : StatusEdit s s.resetNewData
  | setOverwriteEnabled (b : Bool) : StatusEdit s (s.setOverwriteEnabled b)
  | setStartMeasurement : StatusEdit s s.setStartMeasurement

/-- `c'` is `c` after one call of a public mutator of the control register. -/
inductive ControlEdit (c : ControlReg) : ControlReg → Prop
  | set (f : CtrlField) (v : f.Val) : ControlEdit c (f.set c v)

/-- `r'` is `r` after one call of a public mutator of the I2C configuration register. -/
inductive I2cEdit (r : I2cReg) : I2cReg → Prop
  | setFastModePlus (b : Bool) : I2cEdit r (r.setFastModePlus b)
  | setThresholdHalved (b : Bool) : I2cEdit r (r.setThresholdHalved b)
  | setSdaCurrentLimiter (b : Bool) : I2cEdit r (r.setSdaCurrentLimiter b)

/-- A register value after any number of such calls. -/
inductive Edits {R : Type} (edit : R → R → Prop) (r : R) : R → Prop
  | none : Edits edit r r
  | more {r' r'' : R} : Edits edit r r' → edit r' r'' → Edits edit r r''

/-- What `Register::write_mask` is documented for: the word to write to a register that holds `old`, for the new value
`new`, if only the bits of the mask are to change. -/
def maskedUpdate (mask old new : Word) : Word := (old &&& ~~~mask) ||| (new &&& mask)

end Mlx.Spec
