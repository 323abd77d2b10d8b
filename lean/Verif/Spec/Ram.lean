import Verif.Spec.Bus
/-
Vocabulary for reading a frame out of camera RAM.
-/
set_option autoImplicit false
namespace Mlx.Spec
open Mlx
variable {F σ ER EW : Type}

/-- The reads of a frame, in order: (address, number of bytes) of each pixel range, then the five single words
T_a_VBE, T_a_PTAT, V_DD, gain and the compensation pixel of the subpage. -/
def ramPlan (cam : Cam) (rs : List PixelRange) (sp : Subpage) : List (Word × Nat) :=
  rs.map (fun r => (BitVec.ofNat 16 r.startAddress, r.length)) ++
    [(cam.tAVbe, 2), (cam.tAPtat, 2), (cam.vddPixel, 2), (cam.gain, 2), (cam.compensationPixel sp, 2)]

/-- The transactions follow the plan: each planned read, in order, until one fails; `some e` is the error of
that one, `none` means that all succeeded. -/
inductive Follows (addr : Byte) : List (Word × Nat) → List (Txn ER EW) → Option (Err ER EW) → Prop where
  | done : Follows addr [] [] none
  | next {a n plan ts bytes r} : bytes.length = n → Follows addr plan ts r →
      Follows addr ((a, n) :: plan) (.read addr (toBe a) n (.ok bytes) :: ts) r
  | failed {a n plan e} :
      Follows addr ((a, n) :: plan) [.read addr (toBe a) n (.error e)] (some (.i2cWriteRead e))

/-- A read transaction covers the word at address `reg`. -/
def Txn.covers (reg : Word) : Txn ER EW → Prop
  | .read _ sent n _ => ∃ base : Word, sent = toBe base ∧ base.toNat ≤ reg.toNat ∧
      reg.toNat < base.toNat + (n + 1) / 2
  | .write .. => False

/-- `buf` with the bytes from `off` on replaced by `chunk`. -/
def splice (buf : List Byte) (off : Nat) (chunk : List Byte) : List Byte :=
  buf.take off ++ chunk ++ buf.drop (off + chunk.length)

/-- All ranges received: `px` is the old buffer with each range replaced by the bytes received for it. -/
def spliceAll (buf : List Byte) (rs : List PixelRange) (chunks : List (List Byte)) : List Byte :=
  (rs.zip chunks).foldl (fun b rc => splice b rc.1.bufferOffset rc.2) buf

/-- The transactions are the complete reading of a frame: `px` is the old pixel buffer with each pixel range
replaced by the bytes received for it, `ram` the words received for the five readings. -/
def FrameRead (addr : Byte) (cam : Cam) (rs : List PixelRange) (sp : Subpage) (old : List Byte)
    (ts : List (Txn ER EW)) (px : List Byte) (ram : RamData) : Prop :=
  ∃ (chunks : List (List Byte)) (vbe ptat vdd gain cp : Word),
    chunks.map List.length = rs.map PixelRange.length ∧
    ts = (rs.zip chunks).map (fun rc => .read addr (toBe (BitVec.ofNat 16 rc.1.startAddress)) rc.1.length
        (.ok rc.2)) ++
      [.readReg addr cam.tAVbe (.ok vbe), .readReg addr cam.tAPtat (.ok ptat),
       .readReg addr cam.vddPixel (.ok vdd), .readReg addr cam.gain (.ok gain),
       .readReg addr (cam.compensationPixel sp) (.ok cp)] ∧
    px = spliceAll old rs chunks ∧
    ram = { tAVbe := vbe.toInt, tAPtat := ptat.toInt, vddPixel := vdd.toInt, gain := gain.toInt,
            compensationPixel := cp.toInt }

/-- The address of the RAM word of pixel `i`, for a camera type of the crate. -/
def PixelAt (cam : Cam) (sp : Subpage) (i : Nat) (address : Word) : Prop :=
  (cam = Mlx90640.cam ∧ address = BitVec.ofNat 16 (0x0400 + i)) ∨
  (cam = Mlx90641.cam ∧ address = BitVec.ofNat 16 (0x0400 + 64 * (i / 32) + 32 * sp.toNat + i % 32))

/-- The readings of a frame stored in a memory, at the addresses of the camera type (given explicitly by
`C16_addresses`). -/
def frameReadings (cam : Cam) (sp : Subpage) (mem : Word → Word) : RamData where
  tAVbe := (mem cam.tAVbe).toInt
  tAPtat := (mem cam.tAPtat).toInt
  vddPixel := (mem cam.vddPixel).toInt
  gain := (mem cam.gain).toInt
  compensationPixel := (mem (cam.compensationPixel sp)).toInt

/-- The driver is one of the two the crate provides: its camera type is the MLX90640 or the MLX90641, with the
const generics of `lib.rs:95-108`. -/
structure Supported (env : Env σ ER EW) (d : Driver F σ) : Prop where
  cam : d.calib.cam = Mlx90640.cam ∨ d.calib.cam = Mlx90641.cam
  height : env.height = d.calib.cam.height
  buffer : d.pixelBuf.length = 2 * d.calib.cam.numPixels

end Mlx.Spec
