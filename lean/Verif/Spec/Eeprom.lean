import Verif.Model.Calib
import Verif.Spec.Register
import Verif.Spec.Real
import Mathlib.Algebra.BigOperators.Intervals
/-
The contents of a camera's EEPROM as the datasheets document them: words at addresses from 0x2400, bit fields of
words (signed ones in two's complement), and for the MLX90640 the meaning of each field (section 11.2 of its
datasheet). Written in terms of addresses and bit positions, independently of the parser in `eeprom.rs`.
-/
set_option autoImplicit false
namespace Mlx.Spec
open Mlx F32Ops

/-- The word at EEPROM address `addr` of a dump: big-endian, the dump starting with address 0x2400. Bytes
beyond the end count as zero. -/
def eepromWord (data : List Byte) (addr : Nat) : Word :=
  be16 (data.getD (2 * (addr - 0x2400)) 0#8) (data.getD (2 * (addr - 0x2400) + 1) 0#8)

/-- The number stored in bits `lo .. lo + width - 1` of a word, in two's complement. -/
def signedAt (w : Word) (lo width : Nat) : Int := Int.bmod (w.toNat / 2 ^ lo : Nat) (2 ^ width)

/-- `x` as an `i16`: the value in `-32768 .. 32767` congruent to `x` modulo 65536. -/
def wrap16 (x : Int) : Int := x.bmod 65536

/-- `x` fits an `i16`. -/
def Fits16 (x : Int) : Prop := -32768 ≤ x ∧ x ≤ 32767

instance (x : Int) : Decidable (Fits16 x) := by unfold Fits16; infer_instance

namespace Ee640

/-- Row and column (from 0) of a pixel, in row-major order. -/
def row (i : Nat) : Nat := i / 32
/-- See `row`. -/
def col (i : Nat) : Nat := i % 32

section
variable (E : Nat → Word)

/-- One of four values stored by parity: of (row even, column even), (odd, even), (even, odd), (odd, odd),
counting from 0. -/
def byParity {α : Type} (ee oe eo oo : α) (i : Nat) : α :=
  if col i % 2 = 0 then (if row i % 2 = 0 then ee else oe) else (if row i % 2 = 0 then eo else oo)

/-- A signed nibble table of four entries per word, entry 0 in the lowest bits of the first word. -/
def nibbleTable (base k : Nat) : Int := signedAt (E (base + k / 4)) (4 * (k % 4)) 4

/-! Offsets (0x2410 to 0x241F and the top six bits of the pixel words). -/

/-- The terms of the offset of pixel `i`: average, row, column and pixel part. -/
def offsetAverage : Int := signedAt (E 0x2411) 0 16
def offsetRow (i : Nat) : Int := nibbleTable E 0x2412 (row i) * 2 ^ bitsAt (E 0x2410) 8 4
def offsetCol (i : Nat) : Int := nibbleTable E 0x2418 (col i) * 2 ^ bitsAt (E 0x2410) 4 4
def offsetRest (i : Nat) : Int := signedAt (E (0x2440 + i)) 10 6 * 2 ^ bitsAt (E 0x2410) 0 4

/-! Sensitivities (0x2420 to 0x242F and bits 4 to 9 of the pixel words). -/

def alphaAverage : Int := signedAt (E 0x2421) 0 16
def alphaRow (i : Nat) : Int := nibbleTable E 0x2422 (row i) * 2 ^ bitsAt (E 0x2420) 8 4
def alphaCol (i : Nat) : Int := nibbleTable E 0x2428 (col i) * 2 ^ bitsAt (E 0x2420) 4 4
def alphaRest (i : Nat) : Int := signedAt (E (0x2440 + i)) 4 6 * 2 ^ bitsAt (E 0x2420) 0 4
/-- The exponent of the sensitivity scale. -/
def alphaScaleExp : Nat := bitsAt (E 0x2420) 12 4 + 30

/-! Temperature coefficients (0x2436 to 0x2438 and bits 1 to 3 of the pixel words). -/

def kTaRc (i : Nat) : Int :=
  byParity (signedAt (E 0x2436) 8 8) (signedAt (E 0x2436) 0 8) (signedAt (E 0x2437) 8 8) (signedAt (E 0x2437) 0 8) i
def kTaRest (i : Nat) : Int := signedAt (E (0x2440 + i)) 1 3 * 2 ^ bitsAt (E 0x2438) 0 4
/-- The exponent of the first scale. -/
def kTaScaleExp : Nat := bitsAt (E 0x2438) 4 4 + 8

/-- The voltage coefficient of pixel `i`, before scaling (0x2434). -/
def kVRaw (i : Nat) : Int :=
  byParity (signedAt (E 0x2434) 12 4) (signedAt (E 0x2434) 8 4) (signedAt (E 0x2434) 4 4) (signedAt (E 0x2434) 0 4) i

/-- A pixel is broken when its word is zero. -/
def isFailed (i : Nat) : Bool := decide (E (0x2440 + i) = 0#16)
/-- A pixel is an outlier when bit 0 of its word is set. -/
def isOutlier (i : Nat) : Bool := (E (0x2440 + i)).getLsbD 0

/-! Corner temperatures (0x243F). -/

def ctStep : Int := (bitsAt (E 0x243F) 12 2 : Int) * 10
def ct3 : Int := (bitsAt (E 0x243F) 4 4 : Int) * ctStep E
def ct4 : Int := (bitsAt (E 0x243F) 8 4 : Int) * ctStep E + ct3 E

/-- Every sum that is computed in `i16` arithmetic for pixel `i` fits. Terms that do not fit by themselves are
truncated by the shift that computes them. -/
def SumsFit (i : Nat) : Prop :=
  let o := offsetAverage E + wrap16 (offsetRow E i)
  let o' := o + wrap16 (offsetCol E i)
  let a := alphaAverage E + wrap16 (alphaRow E i)
  let a' := a + wrap16 (alphaCol E i)
  Fits16 o ∧ Fits16 o' ∧ Fits16 a ∧ Fits16 a' ∧
  (isFailed E i = false → Fits16 (o' + wrap16 (offsetRest E i)) ∧ Fits16 (kTaRc E i + wrap16 (kTaRest E i)))

/-- The same as `SumsFit` for the sums over rows and columns alone. -/
def BulkSumsFit (i : Nat) : Prop :=
  let o := offsetAverage E + wrap16 (offsetRow E i)
  let a := alphaAverage E + wrap16 (alphaRow E i)
  Fits16 o ∧ Fits16 (o + wrap16 (offsetCol E i)) ∧ Fits16 a ∧ Fits16 (a + wrap16 (alphaCol E i))

end

/-! Interleaved readout (section 11.2.2.5.2 of the datasheet, as in the manufacturer's driver). -/

/-- `IL_PATTERN`: the parity of the row. -/
def ilPattern (i : Nat) : Int := (i / 32 : Nat) - (i / 32 / 2 : Nat) * 2
/-- `Conversion_PATTERN`, for the pixel number `i` counted from 0. -/
def conversionPattern (i : Nat) : Int :=
  (((i + 2) / 4 : Nat) - ((i + 3) / 4 : Nat) + ((i + 1) / 4 : Nat) - (i / 4 : Nat)) * (1 - 2 * ilPattern i)

end Ee640

/-! Corner temperatures. -/

/-- The factor between the sensitivity of temperature range `k` and that of range `k + 1`. -/
def rangeStep (ct : List Int) (ks : List ℝ) (k : Nat) : ℝ :=
  1 + ks.getD k 0 * (ct.getD (k + 1) 0 - ct.getD k 0 : Int)

/-- The sensitivity correction of range `n` relative to range `basic`: the product of the factors on the way from
`basic` up to `n`, or of their reciprocals on the way down. -/
noncomputable def rangeCorrection (basic : Nat) (ct : List Int) (ks : List ℝ) (n : Nat) : ℝ :=
  (∏ k ∈ Finset.Ico basic n, rangeStep ct ks k) * ∏ k ∈ Finset.Ico n basic, (rangeStep ct ks k)⁻¹

/-- The documented offset of a pixel: average, row, column and (unless the pixel is broken) its own part. -/
def offset640 (E : Nat → Word) (i : Nat) : Int :=
  Ee640.offsetAverage E + Ee640.offsetRow E i + Ee640.offsetCol E i +
    if Ee640.isFailed E i then 0 else Ee640.offsetRest E i

end Mlx.Spec
