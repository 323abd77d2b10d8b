import Verif.Model.Mock
import Verif.Spec.Access
/-
Vocabulary for the mock camera.
-/
set_option autoImplicit false
namespace Mlx.Spec
open Mlx
variable {c : MockConfig}

/-- The word at index `i` of big-endian bytes. -/
def wordAt (bytes : List Byte) (i : Nat) : Word := be16 (bytes.getD (2 * i) 0#8) (bytes.getD (2 * i + 1) 0#8)

/-- The mock of a camera: `MockCameraBus<MLX90640_RAM_LENGTH>` of `new_mlx90640`, or the mock of an MLX90641. -/
def MockOf (cam : Cam) (addr : Byte) (c : MockConfig) : Prop :=
  (cam = Mlx90640.cam ∧ c = .mlx90640 addr) ∨ (cam = Mlx90641.cam ∧ c = .mlx90641 addr)

/-- The memory of the mocked camera, by address. What has no contents reads as zero here. -/
def mockMemory (s : Mock c) (a : Word) : Word :=
  if 0x0400 ≤ a.toNat ∧ a.toNat < 0x0400 + c.ramLength / 2 then wordAt s.ram.1 (a.toNat - 0x0400)
  else if 0x2400 ≤ a.toNat ∧ a.toNat < 0x2740 then wordAt s.eeprom.1 (a.toNat - 0x2400)
  else if a = 0x8000#16 then wordAt s.status.1 0
  else if a = 0x800D#16 then wordAt s.control.1 0
  else if a = 0x800F#16 then wordAt s.i2cConfig.1 0
  else 0#16

/-- What can be read from the mock of a camera in one transaction: a whole number (not zero) of words of RAM or of
EEPROM, or one of the three registers. -/
def MockReadable (cam : Cam) (base : Word) (count : Nat) : Prop :=
  0 < count ∧ count % 2 = 0 ∧
    ((0x0400 ≤ base.toNat ∧ base.toNat + count / 2 ≤ ramEnd cam) ∨
     (0x2400 ≤ base.toNat ∧ base.toNat + count / 2 ≤ 0x2740) ∨
     (count = 2 ∧ (base = 0x8000#16 ∨ base = 0x800D#16 ∨ base = 0x800F#16)))

/-- The bits of a register that can be changed in the mock: the documented ones, and bit 1 of the control register. -/
def Unprotected (reg : Word) (i : Nat) : Prop :=
  (reg = 0x8000#16 ∧ i < 6) ∨ (reg = 0x800D#16 ∧ i < 13) ∨ (reg = 0x800F#16 ∧ i < 4)

/-- The bits that can be changed in the configuration words of the EEPROM, by index from 0x240C on: the ones of the
control register, none, the ones of the I²C configuration register, the I²C address. -/
def UnprotectedEeprom (k i : Nat) : Prop := (k = 0 ∧ i < 13) ∨ (k = 2 ∧ i < 4) ∨ (k = 3 ∧ i < 7)

/-- How the mock notes a transaction among its recent operations. -/
def operationOf {ER EW : Type} : Txn ER EW → MockOp
  | .read _ sent count _ => .read (wordAt sent 0) count
  | .write _ sent _ => .write (wordAt sent 0) (sent.length - 2)

end Mlx.Spec
