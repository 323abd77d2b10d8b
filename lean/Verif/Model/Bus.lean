import Verif.Model.Calc
import Verif.Model.Eeprom640
import Verif.Model.Eeprom641
/-
The I²C bus (`embedded_hal::blocking::i2c`), register access over it (`register.rs:14-93`), and `read_ram`
(`common.rs:415-443`).
-/
set_option autoImplicit false
namespace Mlx

/-- An I²C bus: any implementation of `i2c::WriteRead + i2c::Write`, as a state machine. `σ` is the state of
the bus and everything behind it (camera included). A combined transaction sends `out`, then fills the
buffer, whose old contents it may observe and, when it fails, may leave partially overwritten; it cannot
change its length. Assumption: bus implementations return, they do not panic. -/
structure Bus (σ ER EW : Type) where
  /-- `write_read(addr, out, &mut buf)` -/
  writeRead : σ → Byte → List Byte → List Byte → σ × List Byte × Option ER
  /-- `write(addr, out)` -/
  write : σ → Byte → List Byte → σ × Option EW
  length_eq : ∀ s a out buf, (writeRead s a out buf).2.1.length = buf.length

/-- `Error` (`error.rs:42-56`). -/
inductive Err (ER EW : Type) where
  | i2cWriteRead (e : ER)
  | i2cWrite (e : EW)
  | library (e : LibErr)
  deriving DecidableEq, Repr

variable {σ ER EW : Type}

/-- A combined transaction as a fallible step: new bus state, and the buffer or the error. -/
def Bus.read (b : Bus σ ER EW) (s : σ) (addr : Byte) (out buf : List Byte) :
    σ × Res (Err ER EW) (List Byte) :=
  let (s', buf', e) := b.writeRead s addr out buf
  match e with
  | none => (s', .ok buf')
  | some e => (s', .err (.i2cWriteRead e))

/-- `FromI2C for R: Register` (`register.rs:35-55`) up to the decoding: read two bytes of the register. -/
def readRegister (b : Bus σ ER EW) (s : σ) (addr : Byte) (regAddr : Word) :
    σ × Res (Err ER EW) (List Byte) :=
  b.read s addr (toBe regAddr) [0#8, 0#8]

/-- `StatusRegister::from_i2c` (`register.rs:35-55`, `187-199`). -/
def readStatus (b : Bus σ ER EW) (s : σ) (addr : Byte) : σ × Res (Err ER EW) StatusReg :=
  match readRegister b s addr StatusReg.address with
  | (s', .ok buf) => (s', StatusReg.ofBytes buf)
  | (s', .err e) => (s', .err e)
  | (s', .panic) => (s', .panic)

/-- `ControlRegister::from_i2c` (`register.rs:35-55`, `408-417`). -/
def readControl (b : Bus σ ER EW) (s : σ) (addr : Byte) : σ × Res (Err ER EW) ControlReg :=
  match readRegister b s addr ControlReg.address with
  | (s', .ok buf) => (s', ControlReg.ofBytes buf)
  | (s', .err e) => (s', .err e)
  | (s', .panic) => (s', .panic)

/-- `I2cRegister::from_i2c` (`register.rs:35-55`, `495-514`). -/
def readI2cReg (b : Bus σ ER EW) (s : σ) (addr : Byte) : σ × Res (Err ER EW) I2cReg :=
  match readRegister b s addr I2cReg.address with
  | (s', .ok buf) => (s', I2cReg.ofBytes buf)
  | (s', .err e) => (s', .err e)
  | (s', .panic) => (s', .panic)

/-- `ToI2C for R: Register` (`register.rs:65-92`): one four-byte write. -/
def writeRegister (b : Bus σ ER EW) (s : σ) (addr : Byte) (regAddr : Word) (bytes : List Byte) :
    σ × Res (Err ER EW) Unit :=
  match b.write s addr (toBe regAddr ++ bytes) with
  | (s', none) => (s', .ok ())
  | (s', some e) => (s', .err (.i2cWrite e))

/-- `StatusRegister::to_i2c` (`register.rs:65-92`). -/
def writeStatus (b : Bus σ ER EW) (s : σ) (addr : Byte) (r : StatusReg) :
    σ × Res (Err ER EW) Unit :=
  writeRegister b s addr StatusReg.address r.toBytes

/-- `ControlRegister::to_i2c` (`register.rs:65-92`). -/
def writeControl (b : Bus σ ER EW) (s : σ) (addr : Byte) (r : ControlReg) :
    σ × Res (Err ER EW) Unit :=
  writeRegister b s addr ControlReg.address r.toBytes

/-- `I2cRegister::to_i2c` (`register.rs:65-92`). -/
def writeI2cReg (b : Bus σ ER EW) (s : σ) (addr : Byte) (r : I2cReg) :
    σ × Res (Err ER EW) Unit :=
  writeRegister b s addr I2cReg.address r.toBytes

/-- `RamData::read_ram_value` (`calculations.rs:276-288`). -/
def readRamValue (b : Bus σ ER EW) (s : σ) (addr : Byte) (ramAddr : Word) :
    σ × Res (Err ER EW) Int :=
  match b.read s addr (toBe ramAddr) [0#8, 0#8] with
  | (s', .ok (x :: y :: _)) => (s', .ok (be16 x y).toInt)
  | (s', .ok _) => (s', .panic)
  | (s', .err e) => (s', .err e)
  | (s', .panic) => (s', .panic)

/-- `RamData::from_i2c` (`calculations.rs:295-317`). -/
def ramDataFromI2c (cam : Cam) (b : Bus σ ER EW) (s : σ) (addr : Byte) (sp : Subpage) :
    σ × Res (Err ER EW) RamData :=
  match readRamValue b s addr cam.tAVbe with
  | (s, .err e) => (s, .err e)
  | (s, .panic) => (s, .panic)
  | (s, .ok tAVbe) =>
  match readRamValue b s addr cam.tAPtat with
  | (s, .err e) => (s, .err e)
  | (s, .panic) => (s, .panic)
  | (s, .ok tAPtat) =>
  match readRamValue b s addr cam.vddPixel with
  | (s, .err e) => (s, .err e)
  | (s, .panic) => (s, .panic)
  | (s, .ok vddPixel) =>
  match readRamValue b s addr cam.gain with
  | (s, .err e) => (s, .err e)
  | (s, .panic) => (s, .panic)
  | (s, .ok gain) =>
  match readRamValue b s addr (cam.compensationPixel sp) with
  | (s, .err e) => (s, .err e)
  | (s, .panic) => (s, .panic)
  | (s, .ok cp) =>
    (s, .ok { tAVbe := tAVbe, tAPtat := tAPtat, vddPixel := vddPixel, gain := gain,
              compensationPixel := cp })

/-- The range loop of `read_ram` (`common.rs:431-440`): `&mut buf[offset..offset + length]` panics out of
bounds; the bytes a failing transaction left behind stay in the buffer. -/
def readRanges (b : Bus σ ER EW) (addr : Byte) :
    List PixelRange → σ → List Byte → σ × List Byte × Res (Err ER EW) Unit
  | [], s, buf => (s, buf, .ok ())
  | r :: rs, s, buf =>
    if r.bufferOffset + r.length ≤ buf.length then
      let (s', sub, e) := b.writeRead s addr (toBe (BitVec.ofNat 16 r.startAddress))
        ((buf.drop r.bufferOffset).take r.length)
      let buf' := buf.take r.bufferOffset ++ sub ++ buf.drop (r.bufferOffset + r.length)
      match e with
      | none => readRanges b addr rs s' buf'
      | some e => (s', buf', .err (.i2cWriteRead e))
    else (s, buf, .panic)

/-- `read_ram` (`common.rs:415-443`): new bus state, new pixel buffer, outcome. `height` is the const
generic `HEIGHT`, the capacity of the range list. -/
def readRam (m : Mode) (cam : Cam) (height : Nat) (b : Bus σ ER EW) (s : σ) (addr : Byte)
    (a : AccessPattern) (sp : Subpage) (buf : List Byte) :
    σ × List Byte × Res (Err ER EW) RamData :=
  match cam.collectRanges m sp a height with
  | .panic => (s, buf, .panic)
  | .err e => nomatch e
  | .ok ranges =>
    match readRanges b addr ranges s buf with
    | (s', buf', .ok ()) =>
      let (s'', r) := ramDataFromI2c cam b s' addr sp
      (s'', buf', r)
    | (s', buf', .err e) => (s', buf', .err e)
    | (s', buf', .panic) => (s', buf', .panic)

/-- `FromI2C` for the calibrations (`mlx90640/eeprom.rs:413-422`, `mlx90641/eeprom.rs:216-225`): read
`(0x273F - 0x2400 + 1) * 2` bytes at `0x2400` and decode them with `fromData`. -/
def calibFromI2c {C : Type} (fromData : List Byte → Res LibErr C) (b : Bus σ ER EW) (s : σ)
    (addr : Byte) : σ × Res (Err ER EW) C :=
  match b.read s addr (toBe 0x2400#16) (List.replicate ((0x273F - 0x2400 + 1) * 2) 0#8) with
  | (s', .ok buf) => (s', (fromData buf).mapErr .library)
  | (s', .err e) => (s', .err e)
  | (s', .panic) => (s', .panic)

end Mlx
