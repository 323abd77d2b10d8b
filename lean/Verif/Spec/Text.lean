/-
Numbers in texts.
-/
set_option autoImplicit false
namespace Mlx.Spec

/-- The digits of hexadecimal numbers, in upper case. -/
def hexDigits : List Char := "0123456789ABCDEF".toList

/-- The digits of decimal numbers. -/
def decimalDigits : List Char := "0123456789".toList

/-- The number that digits stand for, the most significant first: a digit's value is its position in `digits`. -/
def valueOf (digits : List Char) (ds : List Char) : Nat :=
  ds.foldl (fun n c => n * digits.length + digits.idxOf c) 0

/-- `ds` are the digits of `n`. -/
def Denotes (digits : List Char) (ds : List Char) (n : Nat) : Prop :=
  (∀ c ∈ ds, c ∈ digits) ∧ valueOf digits ds = n

end Mlx.Spec
