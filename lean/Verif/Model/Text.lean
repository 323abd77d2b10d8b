import Verif.Model.Bus
/-
The texts of errors and addresses (`error.rs`, `common.rs:258-262`). Texts are lists of characters.
-/
set_option autoImplicit false
namespace Mlx

/-- A digit of `{:X}`. -/
def hexDigit (n : Nat) : Char := "0123456789ABCDEF".toList.getD n '?'

/-- `{:X}`: no leading zeros, at least one digit. -/
def hexUpper (n : Nat) : List Char :=
  if n < 16 then [hexDigit n] else hexUpper (n / 16) ++ [hexDigit (n % 16)]
termination_by n

/-- `{:#06X}`: prefix `0x`, padded with zeros to a total of six characters. -/
def hexPadded (w : Word) : List Char :=
  "0x".toList ++ List.replicate (4 - (hexUpper w.toNat).length) '0' ++ hexUpper w.toNat

/-- `{}` of a number. -/
def decimal (n : Nat) : List Char :=
  if n < 10 then ["0123456789".toList.getD n '?'] else decimal (n / 10) ++ ["0123456789".toList.getD (n % 10) '?']
termination_by n

/-- `Debug` of a `str`. Simplified: only quotes, backslashes and the usual control characters are escaped (Rust also escapes
other unprintable characters; the messages of the crate have none). -/
def debugStr (s : List Char) : List Char :=
  '"' :: s.flatMap (fun c =>
    if c = '"' then ['\\', '"'] else if c = '\\' then ['\\', '\\'] else if c = '\n' then ['\\', 'n']
    else if c = '\r' then ['\\', 'r'] else if c = '\t' then ['\\', 't'] else if c = '\x00' then ['\\', '0'] else [c]) ++ ['"']

/-- `Debug for Address` (`common.rs:258-262`). -/
def debugAddress (a : Word) : List Char := "Address(".toList ++ ("0x".toList ++ hexUpper a.toNat) ++ ")".toList

/-- `Display for LibraryError` (`error.rs:26-36`). -/
def LibErr.display : LibErr → List Char
  | .invalidData msg => msg.toList
  | .other msg => msg.toList
  | .checksum w => "Invalid checksum for data ".toList ++ hexPadded w

/-- The derived `Debug` of `LibraryError` (`error.rs:11`). -/
def LibErr.debug : LibErr → List Char
  | .invalidData msg => "InvalidData(".toList ++ debugStr msg.toList ++ ")".toList
  | .other msg => "Other(".toList ++ debugStr msg.toList ++ ")".toList
  | .checksum w => "Checksum(".toList ++ decimal w.toNat ++ ")".toList

namespace Err
variable {ER EW : Type}

/-- `Debug for Error` (`error.rs:60-79`), given those of the two bus errors. -/
def debug (dr : ER → List Char) (dw : EW → List Char) : Err ER EW → List Char
  | .i2cWriteRead e => "Error::I2cWriteReadError(".toList ++ dr e ++ ")".toList
  | .i2cWrite e => "Error::I2cWriteError(".toList ++ dw e ++ ")".toList
  | .library e => "Error::LibraryError(".toList ++ e.debug ++ ")".toList

/-- `Display for Error` (`error.rs:81-94`). -/
def display (dr : ER → List Char) (dw : EW → List Char) : Err ER EW → List Char
  | .i2cWriteRead e => "I2C Error: ".toList ++ dr e
  | .i2cWrite e => "I2C Error: ".toList ++ dw e
  | .library e => "Library Error: ".toList ++ e.debug

/-- `std::error::Error::source` (`error.rs:97-110`): the error inside, never `None`. -/
def source : Err ER EW → Option (ER ⊕ EW ⊕ LibErr)
  | .i2cWriteRead e => some (.inl e)
  | .i2cWrite e => some (.inr (.inl e))
  | .library e => some (.inr (.inr e))

/-- `From<LibraryError> for Error` (`error.rs:112-119`). -/
def ofLibErr (e : LibErr) : Err ER EW := .library e

end Err
end Mlx
