import Verif.Model.Calib
import Verif.Model.Hamming
/-
Model of `mlx90641/eeprom.rs`: decoding an MLX90641 EEPROM dump into calibration data.
-/
set_option autoImplicit false
namespace Mlx.Mlx90641
open Mlx F32Ops

/-- `NUM_CORNER_TEMPERATURES` (`mlx90641/eeprom.rs:29`). -/
def numCornerTemps : Nat := 8

/-- Word offsets of the `EepromAddress` values used for indexing (`mlx90641/address.rs:17-100`,
`offset_from_base`). -/
def eepromBase : Nat := 0x2400
def offKsTa : Nat := 0x2422 - eepromBase
def offOffsetScale : Nat := 0x2410 - eepromBase
def offOffsets0 : Nat := 0x2440 - eepromBase
def offSensitivity : Nat := 0x2500 - eepromBase
def offConstants : Nat := 0x25C0 - eepromBase
def offOffsets1 : Nat := 0x2680 - eepromBase

/-- `Mlx90641Calibration` (`mlx90641/eeprom.rs:36-82`). -/
structure Calibration (F : Type) where
  kVdd : Int
  vdd25 : Int
  resolution : Resolution
  kVptat : F
  kTptat : F
  vptat25 : F
  alphaPtat : F
  gain : F
  kSTa : F
  cornerTemps : List Int
  kSTo : List F
  alphaCorrection : List F
  emissivity : Option F
  alphaPixels : List F
  alphaCp : F
  offsetPixels : List Int × List Int
  offsetCp : Int
  kVPixels : List F
  kVCp : F
  kTaPixels : List F
  kTaCp : F
  tgc : Option F
  failed : List Bool

/-- `get_hamming_u16` (`mlx90641/eeprom.rs:508-511`). -/
def getHammingU16 : Parser LibErr Word := do
  let codeword ← getU16
  Parser.lift (Hamming.validateChecksum codeword)

/-- `get_hamming_i16` (`mlx90641/eeprom.rs:514-517`). -/
def getHammingI16 (m : Mode) : Parser LibErr Int := do
  let w ← getHammingU16
  Parser.lift (i16FromBits m (toBe w) 11)

/-- `get_combined_word` (`mlx90641/eeprom.rs:524-530`); the result before `to_be_bytes`. -/
def getCombinedWord : Parser LibErr Word := do
  let upper ← getHammingU16
  let lower ← getHammingU16
  pure ((upper <<< 5) ||| lower)

/-- `split_6_5` (`mlx90641/eeprom.rs:533-537`), with its casts to `u8`. -/
def split65 (word : Word) : Byte × Byte :=
  (((word &&& 0x07E0#16) >>> 5).setWidth 8, (word &&& 0x001F#16).setWidth 8)

/-- `get_6_5_split` (`mlx90641/eeprom.rs:540-543`). -/
def get65Split : Parser LibErr (Byte × Byte) := do
  let word ← getHammingU16
  pure (split65 word)

/-- `get_scaled_cp_constant` (`mlx90641/eeprom.rs:148-156`). -/
def getScaledCpConstant {F : Type} [F32Ops F] (m : Mode) : Parser LibErr F := do
  let word ← getHammingU16
  let rawScale := (word &&& 0x07C0#16) >>> 6
  let value ← Parser.lift (i16FromBits m (toBe (word &&& 0x003F#16)) 6)
  pure (ofInt value /. exp2 (ofInt (rawScale.toNat : Int)))

/-- `get_resolution_with_tgc` (`mlx90641/eeprom.rs:163-172`). -/
def getResolutionWithTgc {F : Type} [F32Ops F] (m : Mode) : Parser LibErr (Resolution × F) := do
  let word ← getHammingU16
  let resolution ← Parser.lift (Resolution.fromRaw ((word &&& 0x0600#16) >>> 9))
  let tgcRaw ← Parser.lift (i16FromBits m (toBe (word &&& 0x01FF#16)) 9)
  pure (resolution, ofInt tgcRaw /. lit 64)

/-- `get_temperature_range_data` (`mlx90641/eeprom.rs:175-206`), loops unrolled. -/
def temperatureRangeData {F : Type} [F32Ops F] (m : Mode) : Parser LibErr (List Int × List F) := do
  let scaleRaw ← getHammingU16
  let scale : F := exp2 (ofInt (scaleRaw.toNat : Int))
  let k0 ← getHammingI16 m
  let k1 ← getHammingI16 m
  let k2 ← getHammingI16 m
  let k3 ← getHammingI16 m
  let k4 ← getHammingI16 m
  let ct5 ← getHammingU16
  let k5 ← getHammingI16 m
  let ct6 ← getHammingU16
  let k6 ← getHammingI16 m
  let ct7 ← getHammingU16
  let k7 ← getHammingI16 m
  pure ([-40, -20, 0, 80, 120, ct5.toInt, ct6.toInt, ct7.toInt],
    [k0, k1, k2, k3, k4, k5, k6, k7].map fun k => ofInt k /. scale)

/-- `chunks_exact(WORD_SIZE)` read as big-endian words (`mlx90641/eeprom.rs:382-385`). -/
def words : List Byte → List Word
  | a :: b :: rest => be16 a b :: words rest
  | _ => []

/-- The closure decoding the four words of a pixel (`mlx90641/eeprom.rs:391-399`). The values are sign
extended to at most eleven bits; the cast to `i8` of a 5- or 6-bit value does not change it. -/
def decodePixel (m : Mode) (w0 w1 wa wc : Word) : Res LibErr (Int × Int × Nat × Int × Int) := do
  let d0 ← Hamming.validateChecksum w0
  let o0 ← i16FromBits m (toBe d0) 11
  let d1 ← Hamming.validateChecksum w1
  let o1 ← i16FromBits m (toBe d1) 11
  let a ← Hamming.validateChecksum wa
  let c ← Hamming.validateChecksum wc
  let kTa ← i16FromBits m [(split65 c).1] 6
  let kV ← i16FromBits m [(split65 c).2] 5
  .ok (o0, o1, a.toNat, kTa, kV)

/-- What the per-pixel loop pushes for one pixel (`mlx90641/eeprom.rs:412-447`). -/
structure PixelOut (F : Type) where
  offset0 : Int
  offset1 : Int
  alpha : F
  kTa : F
  kV : F
  failed : Bool

/-- Constants shared by all pixels (`mlx90641/eeprom.rs:345-358`). -/
structure PixelConsts (F : Type) where
  offsetScale : Int
  offsetAverage : Int
  kTaAverage : Int
  kTaScale1 : F
  kTaScale2 : F
  kVAverage : Int
  kVScale1 : F
  kVScale2 : F

/-- `scale_fn` (`mlx90641/eeprom.rs:362-365`). -/
def scaleFn {F : Type} [F32Ops F] (raw avg : Int) (scale1 scale2 : F) : F :=
  (ofInt raw *. scale2 +. ofInt avg) /. scale1

/-- Body of the per-pixel loop (`mlx90641/eeprom.rs:416-446`). -/
def pixelStep {F : Type} [F32Ops F] (m : Mode) (c : PixelConsts F)
    (px : (((Word × Word) × Word) × Word) × F) : Res LibErr (PixelOut F) := do
  let (o0, o1, a, kTa, kV) ← decodePixel m px.1.1.1.1 px.1.1.1.2 px.1.1.2 px.1.2
  if o0 = 0 ∧ o1 = 0 ∧ a = 0 ∧ kTa = 0 ∧ kV = 0 then
    .ok { offset0 := 0, offset1 := 0, alpha := lit 0, kTa := lit 0, kV := lit 0, failed := true }
  else do
    let delta0 ← arith16 m (o0 * c.offsetScale)
    let delta1 ← arith16 m (o1 * c.offsetScale)
    let off0 ← arith16 m (c.offsetAverage + delta0)
    let off1 ← arith16 m (c.offsetAverage + delta1)
    .ok { offset0 := off0, offset1 := off1,
          alpha := (ofInt (a : Nat) /. lit 2047) *. px.2,
          kTa := scaleFn kTa c.kTaAverage c.kTaScale1 c.kTaScale2,
          kV := scaleFn kV c.kVAverage c.kVScale1 c.kVScale2, failed := false }

/-- The per-pixel loop (`mlx90641/eeprom.rs:412-447`), stopping at the first failure. -/
def pixelLoop {F : Type} [F32Ops F] (m : Mode) (c : PixelConsts F) :
    List ((((Word × Word) × Word) × Word) × F) → Res LibErr (List (PixelOut F))
  | [] => .ok []
  | px :: rest => do
    let o ← pixelStep m c px
    let os ← pixelLoop m c rest
    .ok (o :: os)

/-- `get_sensitivity_reference` (`mlx90641/eeprom.rs:485-504`), loops unrolled; each scale is at most
`63 + 20`, so the `u8` addition cannot overflow. -/
def sensitivityReference {F : Type} [F32Ops F] : Parser LibErr (List F) := do
  let s01 ← get65Split
  let s23 ← get65Split
  let s45 ← get65Split
  let r0 ← getHammingU16
  let r1 ← getHammingU16
  let r2 ← getHammingU16
  let r3 ← getHammingU16
  let r4 ← getHammingU16
  let r5 ← getHammingU16
  let ref (r : Word) (s : Byte) : F := ofInt (r.toNat : Int) /. exp2 (ofInt ((s.toNat + 20 : Nat) : Int))
  pure ([ref r0 s01.1, ref r1 s01.2, ref r2 s23.1, ref r3 s23.2, ref r4 s45.1, ref r5 s45.2].flatMap
    fun v => List.replicate (width * 2) v)

/-- `2i16.pow(n)` (`mlx90641/eeprom.rs:346`): overflows from `2^15` on; a release build wraps. -/
def pow2i16 {ε : Type} (m : Mode) (n : Nat) : Res ε Int := arith16 m (2 ^ n)

/-- The scalar part of `PerPixelCalibration::from_data` (`mlx90641/eeprom.rs:341-359`). -/
def pixelConsts {F : Type} [F32Ops F] (m : Mode) : Parser LibErr (PixelConsts F × List F) := do
  advance (offOffsetScale * 2)
  let os ← get65Split
  let offsetScale ← Parser.lift (pow2i16 m os.1.toNat)
  let avgWord ← getCombinedWord
  let offsetAverage ← Parser.lift (i16FromBits m (toBe avgWord) 11)
  advance (2 * 2)
  let kTaAverage ← getHammingI16 m
  let kTaScales ← get65Split
  let kVAverage ← getHammingI16 m
  let kVScales ← get65Split
  let alphaReference ← sensitivityReference
  pure ({ offsetScale := offsetScale, offsetAverage := offsetAverage, kTaAverage := kTaAverage,
          kTaScale1 := exp2 (ofInt (kTaScales.1.toNat : Int)),
          kTaScale2 := exp2 (ofInt (kTaScales.2.toNat : Int)),
          kVAverage := kVAverage,
          kVScale1 := exp2 (ofInt (kVScales.1.toNat : Int)),
          kVScale2 := exp2 (ofInt (kVScales.2.toNat : Int)) }, alphaReference)

/-- `&data[a..b]`: panics when `b` is past the end (here always `a ≤ b`). -/
def slice {ε : Type} (data : List Byte) (a b : Nat) : Res ε (List Byte) :=
  if b ≤ data.length then .ok ((data.take b).drop a) else .panic

/-- Run a parser over its own copy of the slice; where it ends does not matter (`mlx90641/eeprom.rs:86, 341`). -/
def runParser {ε α : Type} (p : Parser ε α) (s : List Byte) : Res ε α :=
  match p s with
  | .ok (a, _) => .ok a
  | .err e => .err e
  | .panic => .panic

/-- `PerPixelCalibration::from_data` (`mlx90641/eeprom.rs:340-467`). The flag array has `NUM_PIXELS` entries,
so the loop runs at most that often; all five `ArrayVec`s have the same length, and `into_inner` fails
unless they are full. -/
def perPixel {F : Type} [F32Ops F] (m : Mode) (data : List Byte) :
    Res LibErr (List (PixelOut F)) := do
  let (consts, alphaReference) ← runParser (pixelConsts (F := F) m) data
  let offsets0 ← slice data (offOffsets0 * 2) (offSensitivity * 2)
  let sensitivities ← slice data (offSensitivity * 2) (offConstants * 2)
  let constants ← slice data (offConstants * 2) (offOffsets1 * 2)
  let offsets1 ← (if offOffsets1 * 2 ≤ data.length then .ok (data.drop (offOffsets1 * 2)) else .panic)
  let items := ((((words offsets0).zip (words offsets1)).zip (words sensitivities)).zip
    (words constants)).zip alphaReference
  let outs ← pixelLoop m consts (items.take numPixels)
  if outs.length = numPixels then .ok outs
  else .err (.other "the ArrayVec should be filled with EEPROM data")

/-- The scalar part of `Mlx90641Calibration::from_data` (`mlx90641/eeprom.rs:86-114`), with placeholders for
the per-pixel values. -/
def parseScalars {F : Type} [F32Ops F] (m : Mode) : Parser LibErr (Calibration F) := do
  advance (offKsTa * 2)
  let kSTaRaw ← getHammingI16 m
  let emissivityRaw ← getHammingI16 m
  let gain ← getCombinedWord
  let vdd25Raw ← getHammingI16 m
  let kVddRaw ← getHammingI16 m
  let vptat25 ← getCombinedWord
  let kTptatRaw ← getHammingI16 m
  let kVptatRaw ← getHammingI16 m
  let alphaPtatRaw ← getHammingU16
  let alphaCpRaw ← getHammingU16
  let alphaCpScale ← getHammingU16
  let offsetCp ← getCombinedWord
  let kTaCp ← getScaledCpConstant m
  let kVCp ← getScaledCpConstant m
  let (resolution, tgc) ← getResolutionWithTgc m
  let (cornerTemps, kSTo) ← temperatureRangeData m
  let alphaCorrection ← Parser.lift
    (alphaCorrectionCoefficients m numCornerTemps cam.basicRange cornerTemps kSTo)
  pure {
    kVdd := shl16 kVddRaw 5, vdd25 := shl16 vdd25Raw 5, resolution := resolution,
    kVptat := ofInt kVptatRaw /. lit 4096, kTptat := ofInt kTptatRaw /. lit 8,
    vptat25 := ofInt (vptat25.toNat : Int),
    alphaPtat := ofInt (alphaPtatRaw.toNat : Int) /. lit 128,
    gain := ofInt (gain.toNat : Int), kSTa := ofInt kSTaRaw /. exp2 (lit 15),
    cornerTemps := cornerTemps, kSTo := kSTo, alphaCorrection := alphaCorrection,
    emissivity := some (ofInt emissivityRaw /. exp2 (lit 9)),
    alphaPixels := [],
    alphaCp := ofInt (alphaCpRaw.toNat : Int) /. exp2 (ofInt (alphaCpScale.toNat : Int)),
    offsetPixels := ([], []), offsetCp := offsetCp.toInt,
    kVPixels := [], kVCp := kVCp, kTaPixels := [], kTaCp := kTaCp, tgc := some tgc,
    failed := [] }

/-- `Mlx90641Calibration::from_data` (`mlx90641/eeprom.rs:85-142`). -/
def fromData {F : Type} [F32Ops F] (m : Mode) (data : List Byte) : Res LibErr (Calibration F) := do
  let c ← runParser (parseScalars (F := F) m) data
  let outs ← perPixel m data
  .ok { c with
    alphaPixels := outs.map (·.alpha),
    offsetPixels := (outs.map (·.offset0), outs.map (·.offset1)),
    kVPixels := outs.map (·.kV), kTaPixels := outs.map (·.kTa),
    failed := outs.map (·.failed) }

/-- `impl CalibrationData for Mlx90641Calibration` (`mlx90641/eeprom.rs:228-324`). -/
def Calibration.toCalib {F : Type} [F32Ops F] (c : Calibration F) : Calib F where
  cam := cam
  kVdd := c.kVdd
  vdd25 := c.vdd25
  resolution := c.resolution
  vdd0 := lit (33/10)
  kVptat := c.kVptat
  kTptat := c.kTptat
  vptat25 := c.vptat25
  alphaPtat := c.alphaPtat
  gain := c.gain
  kSTa := c.kSTa
  cornerTemps := c.cornerTemps
  kSTo := c.kSTo
  alphaCorrection := c.alphaCorrection
  emissivity := c.emissivity
  offsetRef := fun s => match s with | .zero => c.offsetPixels.1 | .one => c.offsetPixels.2
  offsetRefCp := fun _ => c.offsetCp
  alpha := fun _ => c.alphaPixels
  alphaCp := fun _ => c.alphaCp
  kV := fun _ => c.kVPixels
  kVCp := fun _ => c.kVCp
  kTa := fun _ => c.kTaPixels
  kTaCp := fun _ => c.kTaCp
  tgc := c.tgc
  apComp := fun _ => List.replicate numPixels none
  apCompCp := fun _ _ => none
  failed := c.failed
  outlier := c.failed

end Mlx.Mlx90641
