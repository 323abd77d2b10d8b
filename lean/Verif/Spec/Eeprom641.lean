import Verif.Spec.Eeprom
import Verif.Spec.Hamming
/-
The contents of an MLX90641 EEPROM (section 11.2 of its datasheet). Every word holds eleven bits of data, protected by
the Hamming code of `Spec.Hamming`. As for the MLX90640, everything is written in terms of addresses and bit positions.
-/
set_option autoImplicit false
namespace Mlx.Spec
open Mlx

namespace Ee641

/-- Addresses of the frame-wide parameters, in the order in which they are read. -/
def scalarAddresses : List Nat := List.range' 0x2422 30
/-- Addresses of the parameters shared by all pixels: 0x2410 to 0x2412 and 0x2415 to 0x2421. -/
def sharedAddresses : List Nat := [0x2410, 0x2411, 0x2412] ++ List.range' 0x2415 13
/-- Addresses of the four words of pixel `i`: its offsets for the two subpages, sensitivity, and other constants. -/
def pixelAddresses (i : Nat) : List Nat := [0x2440 + i, 0x2680 + i, 0x2500 + i, 0x25C0 + i]
/-- All addresses that matter, in reading order, for a dump holding the words of the first `n` pixels. -/
def readAddresses (n : Nat) : List Nat :=
  scalarAddresses ++ sharedAddresses ++ (List.range n).flatMap pixelAddresses

/-- The addresses whose words are decoded, in order, from a dump of `length` bytes. If it does not reach the end of the
frame-wide parameters, these are the ones it does contain; if it lacks the first offset for the second subpage, no
words of pixels are decoded. -/
def examined (length : Nat) : List Nat :=
  if length < 128 then List.range' 0x2422 (length / 2 - 34)
  else readAddresses (min 192 ((length - 1280) / 2))

/-- The dump holds the eleven-bit values `D` at the given addresses, each word having at most one bit wrong. -/
def Holds (data : List Byte) (D : Nat → BitVec 11) (addresses : List Nat) : Prop :=
  ∀ a ∈ addresses, WithinOneBit (eepromWord data a) (codeword (D a))

/-- The eleven-bit values as words. -/
def widen (D : Nat → BitVec 11) (a : Nat) : Word := (D a).setWidth 16

/-- A word that cannot be corrected: it is not within one bit of any codeword. -/
def Uncorrectable (w : Word) : Prop := ∀ d : BitVec 11, ¬ WithinOneBit w (codeword d)

/-- `a` is the first of the addresses whose word cannot be corrected. -/
def FirstUncorrectable (data : List Byte) (addresses : List Nat) (a : Nat) : Prop :=
  ∃ before after, addresses = before ++ a :: after ∧ Uncorrectable (eepromWord data a) ∧
    ∀ b ∈ before, ¬ Uncorrectable (eepromWord data b)

section
variable (W : Nat → Word)

/-- A sixteen-bit number stored in two words: 32 times the first plus the second, if the second is below 32 as
documented. (Otherwise the code combines the bits with OR.) -/
def combined (a : Nat) : Word := (W a <<< 5) ||| W (a + 1)

/-- The binary exponent of the offset scale, and the average offset as the code computes it (from the lowest eleven
bits of the stored sixteen). -/
def offsetExp : Nat := bitsAt (W 0x2410) 5 6
def offsetAverage : Int := signedAt (combined W 0x2411) 0 11

/-- The average offset as documented: all sixteen bits, in two's complement. -/
def offsetAverageDoc : Int := signedAt (combined W 0x2411) 0 16

/-- The fields of pixel `i`. -/
def offsetRaw (s : Subpage) (i : Nat) : Int :=
  signedAt (W (match s with | .zero => 0x2440 + i | .one => 0x2680 + i)) 0 11
def alphaRaw (i : Nat) : Nat := (W (0x2500 + i)).toNat
def kTaRaw (i : Nat) : Int := signedAt (W (0x25C0 + i)) 5 6
def kVRaw (i : Nat) : Int := signedAt (W (0x25C0 + i)) 0 5

/-- A pixel is broken when all its words hold zero. -/
def isFailed (i : Nat) : Bool := decide (∀ a ∈ pixelAddresses i, W a = 0#16)

/-- The number of the pair of rows that shares a reference sensitivity. -/
def rowPair (i : Nat) : Nat := i / 32
/-- The exponent of the reference sensitivity of a pair of rows: the upper six bits of a word for an even pair, the
lower five for an odd one. -/
def referenceExp (r : Nat) : Nat :=
  (if r % 2 = 0 then bitsAt (W (0x2419 + r / 2)) 5 6 else bitsAt (W (0x2419 + r / 2)) 0 5) + 20

/-- Every `i16` computation for the offsets fits. -/
def OffsetsFit : Prop :=
  offsetExp W ≤ 14 ∧ ∀ i < 192, isFailed W i = false → ∀ s,
    Fits16 (offsetRaw W s i * 2 ^ offsetExp W) ∧
    Fits16 (offsetAverage W + offsetRaw W s i * 2 ^ offsetExp W)

/-- Every `i16` computation for the offsets that only needs the words at the addresses `known` fits: the scale as soon
as its word is known, the offsets of a pixel as soon as its four words are. -/
def KnownFit (known : List Nat) : Prop :=
  (0x2410 ∈ known → offsetExp W ≤ 14) ∧
  ∀ i < 192, (∀ a ∈ pixelAddresses i, a ∈ known) → isFailed W i = false → ∀ s,
    Fits16 (offsetRaw W s i * 2 ^ offsetExp W) ∧
    Fits16 (offsetAverage W + offsetRaw W s i * 2 ^ offsetExp W)

end
end Ee641

/-- The message of the error for a dump that lacks words of pixels. -/
def arrayVecMessage : String := "the ArrayVec should be filled with EEPROM data"

end Mlx.Spec
