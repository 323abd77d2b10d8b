import Verif.Model.Basic
/-
Model of `mlx90641/hamming.rs`.
-/
set_option autoImplicit false
namespace Mlx.Hamming
open Mlx

/-- `DATA_MASK` (`hamming.rs:94`). -/
def dataMask : Word := 0x07FF#16

/-- `PARITY_MASKS` (`hamming.rs:98-104`). -/
def parityMasks : List Word :=
  [0b0000010101011011#16, 0b0000011001101101#16, 0b0000011110001110#16,
   0b0000011111110000#16, 0b0111111111111111#16]

/-- `u16::count_ones`. -/
def countOnes (w : Word) : Nat := ((List.range 16).filter fun i => w.getLsbD i).length

/-- One iteration of the parity loop of `add_checksum` (`hamming.rs:119-123`): or the parity of the
masked word into bit `11 + index`. -/
def addParity (calculated : Word) (index : Nat) (mask : Word) : Word :=
  calculated ||| (BitVec.ofNat 16 (countOnes (calculated &&& mask) % 2) <<< (11 + index))

/-- `add_checksum` (`hamming.rs:111-126`). -/
def addChecksum (w : Word) : Res LibErr Word :=
  if w &&& ~~~dataMask ≠ 0#16 then
    .err (.other "Value given to add_checksum already has a checksum")
  else
    .ok (parityMasks.zipIdx.foldl (fun acc mi => addParity acc mi.2 mi.1) w)

/-- The error-location loop of `validate_checksum` (`hamming.rs:140-149`), over the first four masks. -/
def errorBits (affected : Word) : Word :=
  (parityMasks.take 4).zipIdx.foldl (fun acc mi =>
    let mask := mi.1 ||| (1#16 <<< (mi.2 + 11))
    if isBitSet16 affected mi.2 then acc &&& mask else acc &&& ~~~mask) 0xFFFF#16

/-- `validate_checksum` (`hamming.rs:132-160`). -/
def validateChecksum (w : Word) : Res LibErr Word := do
  let calculated ← addChecksum (w &&& dataMask)
  if calculated ≠ w then
    let given := w &&& ~~~dataMask
    let calculatedParity := calculated &&& ~~~dataMask
    let affected := (given ^^^ calculatedParity) >>> 11
    let corrected := w ^^^ errorBits affected
    if addChecksum (corrected &&& dataMask) = .ok corrected then
      .ok (corrected &&& dataMask)
    else
      .err (.checksum w)
  else
    .ok (w &&& dataMask)

end Mlx.Hamming
