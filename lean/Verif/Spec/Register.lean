import Verif.Model.Register
/-
The documented layout of the control register (bit position and width of each field, and the meaning of its
codes), independently of the masks and shifts used by the implementation.
-/
set_option autoImplicit false
namespace Mlx.Spec
open Mlx

/-- The documented fields of the control register. -/
inductive CtrlField where
  | useSubpages | stepMode | dataHold | subpageRepeat | subpage | frameRate | resolution | accessPattern
  deriving DecidableEq, Repr

namespace CtrlField

/-- Type of the values of a field. -/
abbrev Val : CtrlField → Type
  | useSubpages | stepMode | dataHold | subpageRepeat => Bool
  | subpage => Subpage
  | frameRate => FrameRate
  | resolution => Resolution
  | accessPattern => AccessPattern

/-- Lowest bit of a field. -/
def lo : CtrlField → Nat
  | useSubpages => 0
  | stepMode => 1
  | dataHold => 2
  | subpageRepeat => 3
  | subpage => 4
  | frameRate => 7
  | resolution => 10
  | accessPattern => 12

/-- Number of bits of a field. -/
def width : CtrlField → Nat
  | frameRate => 3
  | resolution => 2
  | _ => 1

/-- Bit `i` belongs to the field. -/
def Covers (f : CtrlField) (i : Nat) : Prop := f.lo ≤ i ∧ i < f.lo + f.width

instance (f : CtrlField) (i : Nat) : Decidable (f.Covers i) := by unfold Covers; infer_instance

/-- The code of a field value, as documented: flags are 0/1, subpages 0/1, frame rates 0 (0.5 Hz) to 7 (64 Hz),
resolutions 0 (16 bit) to 3 (19 bit), access patterns 0 (interleaved) and 1 (chess). -/
def code : (f : CtrlField) → f.Val → Nat
  | useSubpages, v | stepMode, v | dataHold, v | subpageRepeat, v => Bool.toNat v
  | subpage, v => match (v : Subpage) with | .zero => 0 | .one => 1
  | frameRate, v => match (v : FrameRate) with
    | .half => 0 | .one => 1 | .two => 2 | .four => 3 | .eight => 4 | .sixteen => 5 | .thirtyTwo => 6
    | .sixtyFour => 7
  | resolution, v => match (v : Resolution) with
    | .sixteen => 0 | .seventeen => 1 | .eighteen => 2 | .nineteen => 3
  | accessPattern, v => match (v : AccessPattern) with | .interleave => 0 | .chess => 1

/-- The public getter of a field. -/
def get : (f : CtrlField) → ControlReg → Res Empty f.Val
  | useSubpages, c => .ok c.useSubpages
  | stepMode, c => .ok c.stepMode
  | dataHold, c => .ok c.dataHold
  | subpageRepeat, c => .ok c.subpageRepeat
  | subpage, c => c.subpage
  | frameRate, c => c.frameRate
  | resolution, c => c.resolution
  | accessPattern, c => c.accessPattern

/-- The public setter of a field. -/
def set : (f : CtrlField) → ControlReg → f.Val → ControlReg
  | useSubpages, c, v => c.setUseSubpages v
  | stepMode, c, v => c.setStepMode v
  | dataHold, c, v => c.setDataHold v
  | subpageRepeat, c, v => c.setSubpageRepeat v
  | subpage, c, v => c.setSubpage v
  | frameRate, c, v => c.setFrameRate v
  | resolution, c, v => c.setResolution v
  | accessPattern, c, v => c.setAccessPattern v

end CtrlField

/-- The number stored in bits `lo .. lo + width - 1` of a word. -/
def bitsAt (w : Word) (lo width : Nat) : Nat := w.toNat / 2 ^ lo % 2 ^ width

/-- The field value with the given code (documented codes; used below only for codes in range). -/
def CtrlField.decode : (f : CtrlField) → Nat → f.Val
  | .useSubpages, n | .stepMode, n | .dataHold, n | .subpageRepeat, n => decide (n = 1)
  | .subpage, n => if n = 0 then Subpage.zero else Subpage.one
  | .frameRate, n => match n with
    | 0 => FrameRate.half | 1 => FrameRate.one | 2 => FrameRate.two | 3 => FrameRate.four
    | 4 => FrameRate.eight | 5 => FrameRate.sixteen | 6 => FrameRate.thirtyTwo | _ => FrameRate.sixtyFour
  | .resolution, n => match n with
    | 0 => Resolution.sixteen | 1 => Resolution.seventeen | 2 => Resolution.eighteen
    | _ => Resolution.nineteen
  | .accessPattern, n => if n = 0 then AccessPattern.interleave else AccessPattern.chess

/-- The value a control word holds for a field, according to the documented layout. -/
def CtrlField.valueIn (f : CtrlField) (w : Word) : f.Val := f.decode (bitsAt w f.lo f.width)

/-- The control word with the field replaced by `v`, according to the documented layout: `w'` agrees with `w`
outside the field and holds the code of `v` inside. -/
def CtrlField.Replaced (f : CtrlField) (w : Word) (v : f.Val) (w' : Word) : Prop :=
  ∀ i, w'.getLsbD i = if f.Covers i then (f.code v).testBit (i - f.lo) else w.getLsbD i

/-- The number two big-endian bytes stand for. -/
def beNat (a b : Byte) : Nat := a.toNat * 256 + b.toNat

end Mlx.Spec
