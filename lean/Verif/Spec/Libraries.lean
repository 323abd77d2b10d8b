import Verif.Model.Driver
/-
Two builds of the crate, with different libraries for the functions on floating-point numbers.
-/
set_option autoImplicit false
namespace Mlx.Spec
open Mlx
variable {F : Type}

/-- Two implementations of `f32` that agree on literals, conversions, `+ - * /`, negation, reciprocal and comparison, and on the powers
of two with whole exponents. (IEEE 754 determines all these except the last; but every library's `exp2` has them right.) Nothing is said
about `powi` and `powf`, nor about any other use of `exp2`. -/
structure SameBasics (i j : F32Ops F) : Prop where
  lit : ∀ q, j.lit q = i.lit q
  ofInt : ∀ n, j.ofInt n = i.ofInt n
  add : ∀ x y, j.add x y = i.add x y
  sub : ∀ x y, j.sub x y = i.sub x y
  mul : ∀ x y, j.mul x y = i.mul x y
  div : ∀ x y, j.div x y = i.div x y
  neg : ∀ x, j.neg x = i.neg x
  recip : ∀ x, j.recip x = i.recip x
  feq : ∀ x y, j.feq x y = i.feq x y
  exp2_lit : ∀ n : Nat, j.exp2 (i.lit n) = i.exp2 (i.lit n)
  exp2_ofInt : ∀ n : Int, j.exp2 (i.ofInt n) = i.exp2 (i.ofInt n)

end Mlx.Spec
