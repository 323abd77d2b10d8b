import Verif.Model.Address

/-! What an enumeration of RAM addresses promises. -/
set_option autoImplicit false

namespace Mlx.Spec
open Mlx

/-- What a user of `RamAddress` relies on, for a camera whose variants have the addresses `u16Of`:
* converting an address to a variant succeeds exactly for the addresses of variants, and inverts the conversion to an address;
* the order is that of the declaration: all variants lie between `Base` and `End`;
* the sum of two addresses never overflows;
* the difference of two addresses is exact if it is not negative; otherwise a checked build panics and a release build
  wraps. -/
structure AddressLaws (u16Of : RamAddress → Word) : Prop where
  names : ∀ w a, RamAddress.tryFrom u16Of w = some a ↔ u16Of a = w
  others : ∀ w, RamAddress.tryFrom u16Of w = none ↔ ∀ a, u16Of a ≠ w
  order : ∀ a b, RamAddress.le u16Of a b = true ↔ RamAddress.variants.idxOf a ≤ RamAddress.variants.idxOf b
  within : ∀ a, (u16Of .base).toNat ≤ (u16Of a).toNat ∧ (u16Of a).toNat ≤ (u16Of .last).toNat
  sum : ∀ m a b, RamAddress.add u16Of m a b = .ok ((u16Of a).toNat + (u16Of b).toNat)
  difference : ∀ m a b, RamAddress.le u16Of b a = true →
    RamAddress.sub u16Of m a b = .ok ((u16Of a).toNat - (u16Of b).toNat)
  negative : ∀ a b, RamAddress.le u16Of b a = false →
    RamAddress.sub u16Of .checked a b = .panic ∧
    ∃ x, RamAddress.sub u16Of .wrapping a b = .ok x ∧ x < 65536 ∧ (x + (u16Of b).toNat) % 65536 = (u16Of a).toNat

end Mlx.Spec
