import Verif.Spec.Eeprom
/-
The EEPROM images of the datasheets' worked examples (`mlx9064x-test-data/src/eeprom_data.rs`), used to show that
the hypotheses of the EEPROM theorems are met by real images.
-/
set_option autoImplicit false
namespace Mlx.Spec
open Mlx

/-- A full dump holding `words k` at address `0x2400 + k`. -/
def dump (words : Nat → Nat) : List Byte :=
  (List.range 832).flatMap fun k => [BitVec.ofNat 8 (words k / 256), BitVec.ofNat 8 (words k)]

/-- The first 64 words of the MLX90640 example (`eeprom_data.rs:16-24`). -/
def header640 : List Nat :=
  [0, 0, 0, 0, 0, 0, 0, 0, 0, 0, 0, 0, 0, 0, 0, 0,
   0x4210, 0xffbb, 0x0202, 0xf202, 0xf2f2, 0xe2e2, 0xd1e1, 0xb1d1,
   0xf10f, 0xf00f, 0xe0ef, 0xe0ef, 0xe1e1, 0xf3f2, 0xf404, 0xe504,
   0x79a6, 0x2f44, 0xffdd, 0x2210, 0x3333, 0x2233, 0xef01, 0x9acc,
   0xeedc, 0x10ff, 0x2221, 0x3333, 0x2333, 0x0112, 0xeeff, 0xbbdd,
   0x18ef, 0x2ff1, 0x5952, 0x9d68, 0x5454, 0x0994, 0x6956, 0x5354,
   0x2363, 0xe446, 0xfbb5, 0x044b, 0xf020, 0x9797, 0x9797, 0x2889]

/-- The MLX90640 example, every pixel being the one of the worked example, except two: pixel 5 is broken and pixel 7
an outlier. -/
def words640 (k : Nat) : Nat :=
  if k < 64 then header640.getD k 0 else if k = 69 then 0 else if k = 71 then 0x08a1 else 0x08a0
/-- See `words640`. -/
def example640 : List Byte := dump words640

/-- The same with the largest offset average and the a large row scale, so that sums overflow. -/
def overflow640 : List Byte :=
  dump fun k => if k = 16 then 0x4C10 else if k = 17 then 0x7FFF else words640 k

/-- The first 64 words of the MLX90641 example (`eeprom_data.rs:43-51`). -/
def header641 : List Nat :=
  [0, 0, 0, 0, 0, 0, 0, 0, 0, 0, 0, 0, 0, 0, 0, 0,
   0x0000, 0xb7e8, 0xd016, 0x0000, 0x0000, 0xc2fd, 0x1a43, 0xca9a,
   0x5164, 0x018c, 0x018c, 0x018c, 0x9cb1, 0x956c, 0xa5cc, 0x7dd1,
   0x6d7f, 0x3cd4, 0x27b8, 0x19e6, 0xf137, 0x7814, 0x2658, 0xef9e,
   0x917f, 0xf018, 0xe156, 0x4817, 0x1c80, 0x233e, 0xc826, 0xcffc,
   0xa009, 0xbb53, 0xf194, 0xfc00, 0x7814, 0xed22, 0xed22, 0xed22,
   0xed22, 0xed22, 0x80c8, 0xed22, 0x4190, 0xed22, 0xda58, 0xed22]

/-- The MLX90641 example (`eeprom_data.rs:53-83`), with pixel 3 broken. -/
def words641 (k : Nat) : Nat :=
  if k < 64 then header641.getD k 0
  else if (k - 64) % 192 = 3 then 0
  else if k < 256 then 0xf849 else if k < 448 then 0xffff else if k < 640 then 0xb8c0 else 0xd847
/-- See `words641`. -/
def example641 : List Byte := dump words641

end Mlx.Spec
