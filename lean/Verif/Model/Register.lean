import Verif.Model.Float
/-
Model of `register.rs`: enums, the status, control and I2C configuration registers, and conversions.
-/
set_option autoImplicit false
namespace Mlx

/-- `Subpage` (`register.rs:535-540`). -/
inductive Subpage where
  | zero
  | one
  deriving DecidableEq, Repr

/-- `Subpage as usize` (`register.rs:536-540`). -/
def Subpage.toNat : Subpage → Nat
  | .zero => 0
  | .one => 1

/-- `Subpage::try_from_primitive(..).unwrap()` (`register.rs:114`, `325`): panics on anything but 0, 1. -/
def Subpage.ofRaw {ε : Type} (n : Nat) : Res ε Subpage :=
  if n = 0 then .ok .zero else if n = 1 then .ok .one else .panic

/-- `AccessPattern` (`register.rs:822-838`). -/
inductive AccessPattern where
  | chess
  | interleave
  deriving DecidableEq, Repr

/-- `AccessPattern as u8` (`register.rs:823-838`). -/
def AccessPattern.toNat : AccessPattern → Nat
  | .chess => 1
  | .interleave => 0

/-- `AccessPattern::try_from_primitive(..).unwrap()` (`register.rs:373`). -/
def AccessPattern.ofRaw {ε : Type} (n : Nat) : Res ε AccessPattern :=
  if n = 1 then .ok .chess else if n = 0 then .ok .interleave else .panic

/-- `FrameRate` (`register.rs:581-605`). -/
inductive FrameRate where
  | half | one | two | four | eight | sixteen | thirtyTwo | sixtyFour
  deriving DecidableEq, Repr

/-- `FrameRate::from_raw` (`register.rs:609-621`). -/
def FrameRate.fromRaw (raw : Word) : Res LibErr FrameRate :=
  if raw = 0 then .ok .half
  else if raw = 1 then .ok .one
  else if raw = 2 then .ok .two
  else if raw = 3 then .ok .four
  else if raw = 4 then .ok .eight
  else if raw = 5 then .ok .sixteen
  else if raw = 6 then .ok .thirtyTwo
  else if raw = 7 then .ok .sixtyFour
  else .err (.invalidData "Invalid frame rate given")

/-- `FrameRate::as_raw` (`register.rs:624-635`). -/
def FrameRate.asRaw : FrameRate → Word
  | .half => 0
  | .one => 1
  | .two => 2
  | .four => 3
  | .eight => 4
  | .sixteen => 5
  | .thirtyTwo => 6
  | .sixtyFour => 7

/-- `FrameRate::default` (`register.rs:638-642`). -/
def FrameRate.default : FrameRate := .two

/-- `TryFrom<f32> for FrameRate` (`register.rs:644-682`). -/
def FrameRate.tryFromF32 {F : Type} [F32Ops F] (v : F) : Res LibErr FrameRate :=
  if F32Ops.feq v (F32Ops.lit (1/2)) then .ok .half
  else if F32Ops.feq v (F32Ops.lit 1) then .ok .one
  else if F32Ops.feq v (F32Ops.lit 2) then .ok .two
  else if F32Ops.feq v (F32Ops.lit 4) then .ok .four
  else if F32Ops.feq v (F32Ops.lit 8) then .ok .eight
  else if F32Ops.feq v (F32Ops.lit 16) then .ok .sixteen
  else if F32Ops.feq v (F32Ops.lit 32) then .ok .thirtyTwo
  else if F32Ops.feq v (F32Ops.lit 64) then .ok .sixtyFour
  else .err (.invalidData "The given number does not match a valid frame rate")

/-- `TryFrom<u8> for FrameRate` (`register.rs:684-702`). -/
def FrameRate.tryFromU8 (v : Byte) : Res LibErr FrameRate :=
  if v = 1 then .ok .one
  else if v = 2 then .ok .two
  else if v = 4 then .ok .four
  else if v = 8 then .ok .eight
  else if v = 16 then .ok .sixteen
  else if v = 32 then .ok .thirtyTwo
  else if v = 64 then .ok .sixtyFour
  else .err (.invalidData "The given number does not match a valid frame rate")

/-- The literal produced by `From<FrameRate> for f32` (`register.rs:704-717`), as an exact value. -/
def FrameRate.hz : FrameRate → Rat
  | .half => 1/2
  | .one => 1
  | .two => 2
  | .four => 4
  | .eight => 8
  | .sixteen => 16
  | .thirtyTwo => 32
  | .sixtyFour => 64

/-- `From<FrameRate> for f32` (`register.rs:704-717`). -/
def FrameRate.toF32 {F : Type} [F32Ops F] (r : FrameRate) : F := F32Ops.lit r.hz

/-- The `f32` number of seconds handed to `Duration::from_secs_f32` by `From<FrameRate> for Duration`
(`register.rs:719-725`). The conversion of that number into a `Duration` is `core`'s and not modelled. -/
def FrameRate.frameSecs {F : Type} [F32Ops F] (r : FrameRate) : F := F32Ops.recip r.toF32

/-- `Resolution` (`register.rs:732-744`). -/
inductive Resolution where
  | sixteen | seventeen | eighteen | nineteen
  deriving DecidableEq, Repr

/-- `Default for Resolution` (`register.rs:798-802`). -/
def Resolution.default : Resolution := .eighteen

/-- `Resolution::from_raw` (`register.rs:748-758`). -/
def Resolution.fromRaw (raw : Word) : Res LibErr Resolution :=
  if raw = 0 then .ok .sixteen
  else if raw = 1 then .ok .seventeen
  else if raw = 2 then .ok .eighteen
  else if raw = 3 then .ok .nineteen
  else .err (.invalidData "Invalid raw resolution value given")

/-- `Resolution::as_raw` (`register.rs:761-768`). -/
def Resolution.asRaw : Resolution → Word
  | .sixteen => 0
  | .seventeen => 1
  | .eighteen => 2
  | .nineteen => 3

/-- `TryFrom<u8> for Resolution` (`register.rs:771-785`). -/
def Resolution.tryFromU8 (v : Byte) : Res LibErr Resolution :=
  if v = 16 then .ok .sixteen
  else if v = 17 then .ok .seventeen
  else if v = 18 then .ok .eighteen
  else if v = 19 then .ok .nineteen
  else .err (.invalidData "The given value did not match a valid ADC resolution")

/-- `From<Resolution> for u8` (`register.rs:787-796`). -/
def Resolution.toU8 : Resolution → Byte
  | .sixteen => 16
  | .seventeen => 17
  | .eighteen => 18
  | .nineteen => 19

/-- `Result::unwrap`: an error becomes a panic. -/
def Res.unwrap {ε ε' α : Type} : Res ε α → Res ε' α
  | .ok a => .ok a
  | .err _ => .panic
  | .panic => .panic

/-! ### Status register (`register.rs:95-205`) -/

/-- `StatusRegister` (`register.rs:97`). -/
structure StatusReg where
  raw : Word
  deriving DecidableEq, Repr

namespace StatusReg
/-- Masks (`register.rs:101-107`). -/
def subpageMask : Word := 0x0001#16
def newDataMask : Word := 0x0008#16
def overwriteMask : Word := 0x0010#16
def stepMask : Word := 0x0020#16

/-- `last_updated_subpage` (`register.rs:110-115`), with its `unwrap`. -/
def lastUpdatedSubpage {ε : Type} (s : StatusReg) : Res ε Subpage :=
  Subpage.ofRaw (s.raw &&& subpageMask).toNat
/-- `new_data` (`register.rs:120-122`). -/
def newData (s : StatusReg) : Bool := decide (s.raw &&& newDataMask > 0#16)
/-- `reset_new_data` (`register.rs:125-127`). -/
def resetNewData (s : StatusReg) : StatusReg := ⟨s.raw &&& ~~~newDataMask⟩
/-- `overwrite_enabled` (`register.rs:132-134`). -/
def overwriteEnabled (s : StatusReg) : Bool := decide (s.raw &&& overwriteMask > 0#16)
/-- `set_overwrite_enabled` (`register.rs:137-143`). -/
def setOverwriteEnabled (s : StatusReg) (b : Bool) : StatusReg :=
  if b then ⟨s.raw ||| overwriteMask⟩ else ⟨s.raw &&& ~~~overwriteMask⟩
/-- `start_measurement` (`register.rs:152-154`). -/
def startMeasurement (s : StatusReg) : Bool := decide (s.raw &&& stepMask > 0#16)
/-- `set_start_measurement` (`register.rs:157-159`). -/
def setStartMeasurement (s : StatusReg) : StatusReg := ⟨s.raw ||| stepMask⟩
/-- `PartialEq for StatusRegister` (`register.rs:162-174`). -/
def eq (a b : StatusReg) : Bool :=
  let mask := subpageMask ||| newDataMask ||| overwriteMask ||| stepMask
  decide (a.raw &&& mask = b.raw &&& mask)
/-- `Register::write_mask` (`register.rs:177-180`). -/
def writeMask : Word := newDataMask ||| overwriteMask ||| stepMask
/-- `Register::address` (`register.rs:182-184`). -/
def address : Word := 0x8000#16
/-- `From<&[u8]>` (`register.rs:187-199`): `split_at(2)` panics on short buffers. -/
def ofBytes {ε : Type} (buf : List Byte) : Res ε StatusReg :=
  match buf with
  | a :: b :: _ => .ok ⟨be16 a b⟩
  | _ => .panic
/-- `From<StatusRegister> for [u8; 2]` (`register.rs:201-205`). -/
def toBytes (s : StatusReg) : List Byte := toBe s.raw
end StatusReg

/-! ### Control register (`register.rs:207-423`) -/

/-- `ControlRegister` (`register.rs:209`). -/
structure ControlReg where
  raw : Word
  deriving DecidableEq, Repr

namespace ControlReg
/-- Masks and defaults (`register.rs:212-231`). -/
def useSubpagesMask : Word := 0x0001#16
def stepModeMask : Word := 0x0002#16
def dataHoldMask : Word := 0x0004#16
def subpageRepeatMask : Word := 0x0008#16
def subpageMask : Word := 0x0010#16
def frameRateMask : Word := 0x0380#16
def resolutionMask : Word := 0x0C00#16
def accessPatternMask : Word := 0x1000#16

/-- `default_mlx90640` (`register.rs:234-236`). -/
def default640 : ControlReg := ⟨0x1901#16⟩
/-- `default_mlx90641` (`register.rs:239-241`). -/
def default641 : ControlReg := ⟨0x0901#16⟩

/-- The shared body of the boolean setters (`register.rs:253-259` and its repetitions). -/
def setBit (w mask : Word) (b : Bool) : Word := if b then w ||| mask else w &&& ~~~mask

/-- `use_subpages` (`register.rs:248-250`). -/
def useSubpages (c : ControlReg) : Bool := decide (c.raw &&& useSubpagesMask > 0#16)
/-- `set_use_subpages` (`register.rs:253-259`). -/
def setUseSubpages (c : ControlReg) (b : Bool) : ControlReg := ⟨setBit c.raw useSubpagesMask b⟩
/-- `step_mode` (`register.rs:269-271`). -/
def stepMode (c : ControlReg) : Bool := decide (c.raw &&& stepModeMask > 0#16)
/-- `set_step_mode` (`register.rs:276-282`). -/
def setStepMode (c : ControlReg) (b : Bool) : ControlReg := ⟨setBit c.raw stepModeMask b⟩
/-- `data_hold` (`register.rs:288-290`). -/
def dataHold (c : ControlReg) : Bool := decide (c.raw &&& dataHoldMask > 0#16)
/-- `set_data_hold` (`register.rs:293-299`). -/
def setDataHold (c : ControlReg) (b : Bool) : ControlReg := ⟨setBit c.raw dataHoldMask b⟩
/-- `subpage_repeat` (`register.rs:305-307`). -/
def subpageRepeat (c : ControlReg) : Bool := decide (c.raw &&& subpageRepeatMask > 0#16)
/-- `set_subpage_repeat` (`register.rs:310-316`). -/
def setSubpageRepeat (c : ControlReg) (b : Bool) : ControlReg := ⟨setBit c.raw subpageRepeatMask b⟩
/-- `subpage` (`register.rs:322-326`), with its `unwrap`; `trailing_zeros` of the mask is 4. -/
def subpage {ε : Type} (c : ControlReg) : Res ε Subpage :=
  Subpage.ofRaw ((c.raw &&& subpageMask) >>> 4).toNat
/-- `set_subpage` (`register.rs:329-332`). -/
def setSubpage (c : ControlReg) (s : Subpage) : ControlReg :=
  ⟨c.raw &&& ~~~subpageMask ||| (BitVec.ofNat 16 s.toNat <<< 4)⟩
/-- `frame_rate` (`register.rs:338-342`), with its `unwrap`; `trailing_zeros` of the mask is 7. -/
def frameRate {ε : Type} (c : ControlReg) : Res ε FrameRate :=
  (FrameRate.fromRaw ((c.raw &&& frameRateMask) >>> 7)).unwrap
/-- `set_frame_rate` (`register.rs:345-348`). -/
def setFrameRate (c : ControlReg) (r : FrameRate) : ControlReg :=
  ⟨c.raw &&& ~~~frameRateMask ||| (r.asRaw <<< 7)⟩
/-- `resolution` (`register.rs:353-357`), with its `unwrap`; `trailing_zeros` of the mask is 10. -/
def resolution {ε : Type} (c : ControlReg) : Res ε Resolution :=
  (Resolution.fromRaw ((c.raw &&& resolutionMask) >>> 10)).unwrap
/-- `set_resolution` (`register.rs:360-363`). -/
def setResolution (c : ControlReg) (r : Resolution) : ControlReg :=
  ⟨c.raw &&& ~~~resolutionMask ||| (r.asRaw <<< 10)⟩
/-- `access_pattern` (`register.rs:369-374`): the raw value is cast to `u8` before the conversion. -/
def accessPattern {ε : Type} (c : ControlReg) : Res ε AccessPattern :=
  AccessPattern.ofRaw (((c.raw &&& accessPatternMask) >>> 12).setWidth 8).toNat
/-- `set_access_pattern` (`register.rs:377-381`). -/
def setAccessPattern (c : ControlReg) (a : AccessPattern) : ControlReg :=
  ⟨c.raw &&& ~~~accessPatternMask ||| (BitVec.ofNat 16 a.toNat <<< 12)⟩
/-- `PartialEq for ControlRegister` (`register.rs:384-396`). -/
def eq (a b : ControlReg) : Bool :=
  let mask := useSubpagesMask ||| stepModeMask ||| dataHoldMask ||| subpageRepeatMask
    ||| subpageMask ||| frameRateMask ||| resolutionMask ||| accessPatternMask
  decide (a.raw &&& mask = b.raw &&& mask)
/-- `Register::write_mask` (`register.rs:399-401`). -/
def writeMask : Word := 0x1FFF#16
/-- `Register::address` (`register.rs:403-405`). -/
def address : Word := 0x800D#16
/-- `From<&[u8]>` (`register.rs:408-417`). -/
def ofBytes {ε : Type} (buf : List Byte) : Res ε ControlReg :=
  match buf with
  | a :: b :: _ => .ok ⟨be16 a b⟩
  | _ => .panic
/-- `From<ControlRegister> for [u8; 2]` (`register.rs:419-423`). -/
def toBytes (c : ControlReg) : List Byte := toBe c.raw
end ControlReg

/-! ### I2C configuration register (`register.rs:425-532`) -/

/-- `I2cRegister` (`register.rs:427-433`). -/
structure I2cReg where
  fastModePlus : Bool
  thresholdHalved : Bool
  sdaCurrentLimiter : Bool
  deriving DecidableEq, Repr

namespace I2cReg
/-- `Default for I2cRegister` (`register.rs:473-481`). -/
def default : I2cReg := ⟨true, false, true⟩
/-- `Register::write_mask` (`register.rs:484-488`). -/
def writeMask : Word := 0x0007#16
/-- `Register::address` (`register.rs:490-492`). -/
def address : Word := 0x800F#16
/-- `From<&[u8]>` (`register.rs:495-514`). -/
def ofBytes {ε : Type} (buf : List Byte) : Res ε I2cReg :=
  match buf with
  | a :: b :: _ =>
    let raw := be16 a b
    .ok ⟨!isBitSet16 raw 0, isBitSet16 raw 1, !isBitSet16 raw 2⟩
  | _ => .panic
/-- `From<I2cRegister> for [u8; 2]` (`register.rs:516-532`). -/
def toBytes (r : I2cReg) : List Byte :=
  let raw := 0#16
  let raw := if !r.fastModePlus then raw ||| 0x0001#16 else raw
  let raw := if r.thresholdHalved then raw ||| 0x0002#16 else raw
  let raw := if !r.sdaCurrentLimiter then raw ||| 0x0004#16 else raw
  toBe raw
/-- `set_fast_mode_plus` (`register.rs:444-446`). -/
def setFastModePlus (r : I2cReg) (b : Bool) : I2cReg := { r with fastModePlus := b }
/-- `set_i2c_threshold_halved` (`register.rs:456-458`). -/
def setThresholdHalved (r : I2cReg) (b : Bool) : I2cReg := { r with thresholdHalved := b }
/-- `set_sda_current_limiter` (`register.rs:468-470`). -/
def setSdaCurrentLimiter (r : I2cReg) (b : Bool) : I2cReg := { r with sdaCurrentLimiter := b }
end I2cReg

end Mlx
