import Verif.Model.Basic
/-
The extended (16, 11) Hamming code as documented in the table at `hamming.rs:11-84`, independently of the
implementation: bits 0 to 10 are data, bits 11 to 14 are the parities P0 to P3 of the data bits marked in the
table, bit 15 (P4) is the parity of all the other bits.
-/
set_option autoImplicit false
namespace Mlx.Spec
open Mlx

/-- The codeword of eleven data bits. -/
def codeword (d : BitVec 11) : Word :=
  let D := d.getLsbD
  let p0 := D 0 ^^ D 1 ^^ D 3 ^^ D 4 ^^ D 6 ^^ D 8 ^^ D 10
  let p1 := D 0 ^^ D 2 ^^ D 3 ^^ D 5 ^^ D 6 ^^ D 9 ^^ D 10
  let p2 := D 1 ^^ D 2 ^^ D 3 ^^ D 7 ^^ D 8 ^^ D 9 ^^ D 10
  let p3 := D 4 ^^ D 5 ^^ D 6 ^^ D 7 ^^ D 8 ^^ D 9 ^^ D 10
  let p4 := D 0 ^^ D 1 ^^ D 2 ^^ D 3 ^^ D 4 ^^ D 5 ^^ D 6 ^^ D 7 ^^ D 8 ^^ D 9 ^^ D 10
    ^^ p0 ^^ p1 ^^ p2 ^^ p3
  BitVec.ofBoolListLE [D 0, D 1, D 2, D 3, D 4, D 5, D 6, D 7, D 8, D 9, D 10, p0, p1, p2, p3, p4]

/-- `w` with bit `i` inverted. -/
def flipBit (w : Word) (i : Fin 16) : Word := w ^^^ (1#16 <<< (i : Nat))

/-- `w` differs from `v` in at most one bit. -/
def WithinOneBit (w v : Word) : Prop := w = v ∨ ∃ i, w = flipBit v i

instance (w v : Word) : Decidable (WithinOneBit w v) := by unfold WithinOneBit; infer_instance

end Mlx.Spec
