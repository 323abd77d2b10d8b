import Verif.Model.Camera

/-! Pixels, subpages and the ranges of pixel RAM that are read for a subpage. -/
set_option autoImplicit false

namespace Mlx.Spec
open Mlx

/-- Row of pixel `i` in an image of the given width. -/
def row (width i : Nat) : Nat := i / width

/-- Column of pixel `i`. -/
def col (width i : Nat) : Nat := i % width

/-- The documented assignment of MLX90640 pixels to subpages. -/
def Selected640 (a : AccessPattern) (s : Subpage) (i : Nat) : Prop :=
  match a with
  | .chess => (row 32 i + col 32 i) % 2 = s.toNat
  | .interleave => row 32 i % 2 = s.toNat

instance (a : AccessPattern) (s : Subpage) (i : Nat) : Decidable (Selected640 a s i) := by
  unfold Selected640; cases a <;> infer_instance

/-- The range fills the two buffer bytes of pixel `i`. -/
def Fills (r : PixelRange) (i : Nat) : Prop :=
  r.bufferOffset ≤ 2 * i ∧ 2 * i + 2 ≤ r.bufferOffset + r.length

instance (r : PixelRange) (i : Nat) : Decidable (Fills r i) := by unfold Fills; infer_instance

/-- The camera address whose word ends up in buffer byte `k`. -/
def addressOf (r : PixelRange) (k : Nat) : Nat := r.startAddress + (k - r.bufferOffset) / 2

/-- Two ranges do not share a buffer byte. -/
def Apart (r r' : PixelRange) : Prop :=
  r.bufferOffset + r.length ≤ r'.bufferOffset ∨ r'.bufferOffset + r'.length ≤ r.bufferOffset

instance (r r' : PixelRange) : Decidable (Apart r r') := by unfold Apart; infer_instance

end Mlx.Spec
