import Verif.Spec.Driver
/-
The memory areas of the cameras that are documented for access over I²C.
-/
set_option autoImplicit false
namespace Mlx.Spec
open Mlx
variable {σ ER EW : Type}

/-- The end of RAM (exclusive): 0x0740 for the MLX90640 (32 x 26 words), 0x05C0 for the MLX90641. -/
def ramEnd (cam : Cam) : Nat := if cam.numPixels = 768 then 0x0740 else 0x05C0

/-- Reading `count` bytes from `base` on: the status or control register alone, or a whole number (not zero) of
words of RAM. -/
def ReadsDocumented (cam : Cam) (base : Word) (count : Nat) : Prop :=
  (count = 2 ∧ (base = 0x8000#16 ∨ base = 0x800D#16)) ∨
  (0 < count ∧ count % 2 = 0 ∧ 0x0400 ≤ base.toNat ∧ base.toNat + count / 2 ≤ ramEnd cam)

/-- The registers a driver writes. -/
def Writable (reg : Word) : Prop := reg = 0x8000#16 ∨ reg = 0x800D#16

/-- A transaction with the device at `addr` that reads documented memory, or writes one word to the status or the
control register. -/
def Documented (cam : Cam) (addr : Byte) : Txn ER EW → Prop
  | .read a sent count _ => a = addr ∧ ∃ base, sent = toBe base ∧ ReadsDocumented cam base count
  | .write a sent _ => a = addr ∧ ∃ reg w, sent = toBe reg ++ toBe w ∧ Writable reg

/-- The bits of the writable registers that the methods of the driver are documented to change: new data, overwrite and
start of measurement in the status register; all documented fields of the control register (bit 1 and bits 13 to 15 are
reserved). -/
def Editable (reg : Word) (i : Nat) : Prop :=
  (reg = 0x8000#16 ∧ 3 ≤ i ∧ i ≤ 5) ∨ (reg = 0x800D#16 ∧ (i = 0 ∨ 2 ≤ i ∧ i ≤ 12))

/-- A bus that serves the documented accesses to the device at `addr` with the memory `mem`: they never fail. Writes
that would change reserved bits may be refused. -/
structure Serves (b : Bus σ ER EW) (cam : Cam) (addr : Byte) (mem : σ → Word → Word) : Prop where
  read : ∀ s base buf, ReadsDocumented cam base buf.length → (b.writeRead s addr (toBe base) buf).2.2 = none
  write : ∀ s reg w, Writable reg → OnlyBits (Editable reg) (mem s reg) w → (b.write s addr (toBe reg ++ toBe w)).2 = none
  eeprom : ∀ s buf, buf.length = 1664 → (b.writeRead s addr (toBe 0x2400#16) buf).2.2 = none

/-- A bus with a healthy camera at address `addr`, which has nothing but its memory for a state. -/
def cameraBus (addr : Byte) : Bus (Word → Word) Unit Unit where
  writeRead s a out buf :=
    if a = addr then
      match out with
      | [h, l] => (s, memBytes s (be16 h l) buf.length, none)
      | _ => (s, buf, some ())
    else (s, buf, some ())
  write s a out :=
    if a = addr then
      match out with
      | [h, l, vh, vl] => (setWord s (be16 h l) (be16 vh vl), none)
      | _ => (s, some ())
    else (s, some ())
  length_eq s a out buf := by
    split
    · split <;> simp [memBytes]
    · rfl

/-- The memory of a camera with EEPROM words `words`, a new frame of subpage 1 being available, configured as after
reset, and the RAM of the datasheets' worked examples (every pixel alike). -/
def exampleMemory (words : Nat → Nat) (a : Word) : Word :=
  if 0x2400 ≤ a.toNat ∧ a.toNat < 0x2740 then BitVec.ofNat 16 (words (a.toNat - 0x2400))
  else if a = 0x8000#16 then 0x0009#16
  else if a = 0x800D#16 then 0x1901#16
  else if a = 0x072A#16 ∨ a = 0x05AA#16 then 0xCCC5#16
  else if a = 0x070A#16 ∨ a = 0x058A#16 then 0x1881#16
  else if a = 0x0700#16 ∨ a = 0x0580#16 then 0x4BF2#16
  else if a = 0x0720#16 ∨ a = 0x05A0#16 then 0x06AF#16
  else 0x0261#16

end Mlx.Spec
