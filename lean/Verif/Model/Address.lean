import Verif.Model.Camera
/-
The public address types: `Address` (`common.rs:239-280`) and the two `RamAddress` enumerations.
An `Address` is a newtype around `u16`; here it is a `Word`, and its conversions from and to `u16` are the identity.
-/
set_option autoImplicit false
namespace Mlx

/-- The variants of `RamAddress`, the same for both cameras (`mlx90640/address.rs:122-150`, `mlx90641/address.rs:122-149`). -/
inductive RamAddress where
  | base
  | ambientTemperatureVoltageBe
  | compensationPixelZero
  | gain
  | ambientTemperatureVoltage
  | compensationPixelOne
  | pixelSupplyVoltage
  | last
  deriving DecidableEq, Repr

namespace RamAddress

/-- The variants in the order of declaration (`End` is called `last` here). -/
def variants : List RamAddress :=
  [base, ambientTemperatureVoltageBe, compensationPixelZero, gain, ambientTemperatureVoltage, compensationPixelOne,
   pixelSupplyVoltage, last]

/-- `mlx90640::RamAddress as u16`, `u16::from` and `Address::from` (`mlx90640/address.rs:127-149`, `163-168`). -/
def u16Of640 : RamAddress → Word
  | base => 0x0400#16
  | ambientTemperatureVoltageBe => 0x0700#16
  | compensationPixelZero => 0x0708#16
  | gain => 0x070A#16
  | ambientTemperatureVoltage => 0x0720#16
  | compensationPixelOne => 0x0728#16
  | pixelSupplyVoltage => 0x072A#16
  | last => 0x073F#16

/-- `mlx90641::RamAddress as u16`, `u16::from` and `Address::from` (`mlx90641/address.rs:127-148`, `162-167`). -/
def u16Of641 : RamAddress → Word
  | base => 0x0400#16
  | ambientTemperatureVoltageBe => 0x0580#16
  | compensationPixelZero => 0x0588#16
  | gain => 0x058A#16
  | ambientTemperatureVoltage => 0x05A0#16
  | compensationPixelOne => 0x05A8#16
  | pixelSupplyVoltage => 0x05AA#16
  | last => 0x05BF#16

/-- `TryFrom<u16>` derived by `num_enum` and `TryFrom<Address>` (`mlx90640/address.rs:122,154-161`,
`mlx90641/address.rs:122,153-160`): `none` is the error, which carries the number. -/
def tryFrom (u16Of : RamAddress → Word) (w : Word) : Option RamAddress :=
  variants.find? fun a => u16Of a == w

/-- The four `Add` implementations of `address_enum_ops!` (`util.rs:12-36`). -/
def add (u16Of : RamAddress → Word) (m : Mode) (a b : RamAddress) : Res Empty Nat :=
  arithU16 m ((u16Of a).toNat + (u16Of b).toNat)

/-- The four `Sub` implementations of `address_enum_ops!` (`util.rs:37-61`): `u16` subtraction. -/
def sub (u16Of : RamAddress → Word) (m : Mode) (a b : RamAddress) : Res Empty Nat :=
  if (u16Of b).toNat ≤ (u16Of a).toNat then .ok ((u16Of a).toNat - (u16Of b).toNat)
  else match m with
    | .checked => .panic
    | .wrapping => .ok ((u16Of a).toNat + 65536 - (u16Of b).toNat)

/-- The derived `PartialOrd` and `Ord`: by discriminant (`mlx90640/address.rs:122`, `mlx90641/address.rs:122`). -/
def le (u16Of : RamAddress → Word) (a b : RamAddress) : Bool := (u16Of a).toNat ≤ (u16Of b).toNat

end RamAddress
end Mlx
