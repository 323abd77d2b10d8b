import Verif.Model.Basic
/-
The `f32` operations used by the crate, as an abstract interface.

Theorems that quantify over every `F` with `[F32Ops F]` do not depend on rounding at all, so they hold
for IEEE binary32 as well as for exact arithmetic. No law is assumed of these operations.
-/
set_option autoImplicit false
namespace Mlx

/-- Everything the crate does with `f32` (`calculations.rs`, `common.rs`, `eeprom.rs`). -/
class F32Ops (F : Type) where
  /-- A literal constant, given by its exact decimal value (rounded by the implementation). -/
  lit : Rat → F
  /-- `f32::from` of an `i8`, `u8`, `i16` or `u16` value. -/
  ofInt : Int → F
  add : F → F → F
  sub : F → F → F
  mul : F → F → F
  div : F → F → F
  neg : F → F
  /-- `f32::exp2`. -/
  exp2 : F → F
  /-- `f32::recip`. -/
  recip : F → F
  /-- `f32::powi`. -/
  powi : F → Int → F
  /-- `f32::powf`. -/
  powf : F → F → F
  /-- `==` on `f32`. -/
  feq : F → F → Bool

namespace F32Ops
scoped infixl:65 " +. " => F32Ops.add
scoped infixl:65 " -. " => F32Ops.sub
scoped infixl:70 " *. " => F32Ops.mul
scoped infixl:70 " /. " => F32Ops.div
end F32Ops

end Mlx
