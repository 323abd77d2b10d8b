import Verif.Model.Calib
/-
Model of `mlx90640/eeprom.rs`: decoding an MLX90640 EEPROM dump into calibration data.
-/
set_option autoImplicit false
namespace Mlx.Mlx90640
open Mlx F32Ops

/-- `NUM_CORNER_TEMPERATURES` (`mlx90640/eeprom.rs:26`). -/
def numCornerTemps : Nat := 4

/-- `EepromAddress::Base` and `EepromAddress::End` (`mlx90640/address.rs:20`, `100`). -/
def eepromBase : Nat := 0x2400
def eepromEnd : Nat := 0x273F

/-- `Mlx90640Calibration` (`mlx90640/eeprom.rs:32-82`). -/
structure Calibration (F : Type) where
  kVdd : Int
  vdd25 : Int
  resolution : Resolution
  kVptat : F
  kTptat : F
  vptat25 : F
  alphaPtat : F
  gain : F
  kSTa : F
  cornerTemps : List Int
  kSTo : List F
  alphaCorrection : List F
  alphaPixels : List F
  alphaCp : F × F
  offsetPixels : List Int
  offsetCp : Int × Int
  /-- `k_v_pattern: [f32; 4]` -/
  kVPattern : F × F × F × F
  kVCp : F
  kTaPixels : List F
  kTaCp : F
  tgc : Option F
  /-- `interleave_correction_pixels: [f32; 6]` -/
  ilPixels : (F × F × F) × (F × F × F)
  ilCp : F
  failed : List Bool
  outlier : List Bool

/-- `word_to_u4s` (`mlx90640/eeprom.rs:677-681`); the four `u8`s as naturals. -/
def wordToU4s {ε : Type} : Parser ε (Nat × Nat × Nat × Nat) := do
  let high ← getU8
  let low ← getU8
  pure (((high &&& 0xF0#8) >>> 4).toNat, (high &&& 0x0F#8).toNat,
    ((low &&& 0xF0#8) >>> 4).toNat, (low &&& 0x0F#8).toNat)

/-- `u8_to_i4s` (`mlx90640/eeprom.rs:684-694`). -/
def u8ToI4s (byte : Byte) : Int × Int :=
  let high := byte &&& 0xF0#8
  let low := (byte &&& 0x0F#8) <<< 4
  (sar high.toInt 4, sar low.toInt 4)

/-- `word_to_i4s` (`mlx90640/eeprom.rs:697-703`). -/
def wordToI4s {ε : Type} : Parser ε (Int × Int × Int × Int) := do
  let high ← getU8
  let low ← getU8
  pure ((u8ToI4s high).1, (u8ToI4s high).2, (u8ToI4s low).1, (u8ToI4s low).2)

/-- `word_6_10_split` (`mlx90640/eeprom.rs:666-674`). -/
def word610Split {ε : Type} : Parser ε (Int × List Byte) := do
  let a ← getU8
  let b ← getU8
  pure (sar a.toInt 2, [a &&& 0x03#8, b])

/-- `u16::from_be_bytes(alpha_cp_bytes)` (`mlx90640/eeprom.rs:317`) on the two bytes `word_6_10_split`
returned (a list here, an array in the code). -/
def u16OfBytes {ε : Type} (bytes : List Byte) : Res ε Word :=
  match getU16 (ε := ε) bytes with
  | .ok (w, _) => .ok w
  | .err e => .err e
  | .panic => .panic

/-- Coefficient `j` (0..3) of a word of four nibbles, in the reversed order of `.rev()`
(`mlx90640/eeprom.rs:114`, `133`). -/
def revCoeff (c : Int × Int × Int × Int) (j : Nat) : Int :=
  match j with
  | 0 => c.2.2.2
  | 1 => c.2.2.1
  | 2 => c.2.1
  | _ => c.1

/-- The row loop of `calculate_bulk_pixel_calibration` (`mlx90640/eeprom.rs:103-121`): chunk `k` covers
pixels `128*k .. 128*k+127`, four rows of 32. Simplification: the nested mutable chunk loops are one
index-based pass per chunk (they update disjoint elements). -/
def rowPasses {ε : Type} (m : Mode) (rowScale : Nat) : Nat → Nat → List Int → Parser ε (List Int)
  | 0, _, px => pure px
  | fuel + 1, k, px => do
    let coeffs ← wordToI4s
    let px' ← Parser.lift (mapIdxRes (fun i x =>
      if i / (width * 4) = k then
        arith16 m (x + shl16 (revCoeff coeffs (i / width % 4)) rowScale)
      else .ok x) 0 px)
    rowPasses m rowScale fuel (k + 1) px'

/-- The column loop (`mlx90640/eeprom.rs:123-142`): chunk `k` covers columns `4*k .. 4*k+3` of every row. -/
def columnPasses {ε : Type} (m : Mode) (columnScale : Nat) :
    Nat → Nat → List Int → Parser ε (List Int)
  | 0, _, px => pure px
  | fuel + 1, k, px => do
    let coeffs ← wordToI4s
    let px' ← Parser.lift (mapIdxRes (fun i x =>
      if i % width / 4 = k then
        arith16 m (x + shl16 (revCoeff coeffs (i % width % 4)) columnScale)
      else .ok x) 0 px)
    columnPasses m columnScale fuel (k + 1) px'

/-- `calculate_bulk_pixel_calibration` (`mlx90640/eeprom.rs:92-144`): the array, the remainder scale and
the extra nibble. -/
def bulkPixelCalibration {ε : Type} (m : Mode) : Parser ε (List Int × Nat × Nat) := do
  let scales ← wordToU4s
  let average ← getI16
  let px ← rowPasses m scales.2.1 (height / 4) 0 (List.replicate numPixels average)
  let px ← columnPasses m scales.2.2.1 (width / 4) 0 px
  pure (px, scales.2.2.2, scales.1)

/-- `repeat_chessboard` (`mlx90640/eeprom.rs:159-176`): 16 copies of the even-row pair, 16 of the odd-row
pair, the two rows repeated up to `NUM_PIXELS`. -/
def repeatChessboard {α : Type} (v : α × α × α × α) : List α :=
  let evenRow := (List.replicate (width / 2) [v.1, v.2.2.1]).flatten
  let oddRow := (List.replicate (width / 2) [v.2.1, v.2.2.2]).flatten
  (List.replicate (height / 2) (evenRow ++ oddRow)).flatten

/-- `generate_k_ta_pixels` (`mlx90640/eeprom.rs:186-190`). -/
def generateKTaPixels {ε : Type} : Parser ε (List Int) := do
  let a ← getI8
  let b ← getI8
  let c ← getI8
  let d ← getI8
  pure (repeatChessboard (a, b, c, d))

/-- `get_access_pattern_corrections` (`mlx90640/eeprom.rs:197-214`). -/
def accessPatternCorrections {F ε : Type} [F32Ops F] (m : Mode) :
    Parser ε (F × (F × F × F) × (F × F × F)) := do
  let word ← getU16
  let c1raw ← Parser.lift (i16FromBits m (toBe (word &&& 0x003F#16)) 6)
  let c2raw ← Parser.lift (i16FromBits m (toBe ((word &&& 0x07C0#16) >>> 6)) 5)
  let c3raw ← Parser.lift (i16FromBits m (toBe ((word &&& 0xF800#16) >>> 11)) 5)
  let c1 : F := ofInt c1raw /. lit 16
  let c2 : F := ofInt c2raw /. lit 2
  let c3 : F := ofInt c3raw /. lit 8
  let b := c2 -. c3
  let c := c2 +. c3
  pure (c1, (neg c3, b, neg c), (c3, neg b, c))

/-- `get_temperature_range_data` (`mlx90640/eeprom.rs:217-245`). The corner temperature arithmetic is on
values of at most `15 * 30 + 15 * 30`, so the `i16` operations cannot overflow and are written plainly. -/
def temperatureRangeData {F ε : Type} [F32Ops F] : Parser ε (List Int × List F) := do
  let k0 ← getI8
  let k1 ← getI8
  let k2 ← getI8
  let k3 ← getI8
  -- after `swap(0, 1)` and `swap(2, 3)`
  let ks : List F := [ofInt k1, ofInt k0, ofInt k3, ofInt k2]
  let u ← wordToU4s
  let step : Int := (u.1 % 4 : Nat) * 10
  let ct2 : Int := (u.2.2.1 : Int) * step
  let ct3 : Int := (u.2.1 : Int) * step + ct2
  let scale : F := exp2 (ofInt (u.2.2.2 + 8 : Nat))
  pure ([-40, 0, ct2, ct3], ks.map fun k => k /. scale)

/-- What the per-pixel loop produces for one pixel (`mlx90640/eeprom.rs:347-374`). -/
structure PixelOut (F : Type) where
  offset : Int
  alpha : F
  kTa : F
  failed : Bool
  outlier : Bool

/-- The body of the per-pixel loop (`mlx90640/eeprom.rs:348-374`) for the bytes `high`, `low`. -/
def pixelStep {F ε : Type} [F32Ops F] (m : Mode) (offsetRemScale alphaRemScale kTaScale2 : Nat)
    (alphaScale kTaScale1 : F) (offset : Int) (alpha : F) (kTaRc : Int) (high low : Byte) :
    Res ε (PixelOut F) :=
  if high = 0#8 ∧ low = 0#8 then
    .ok { offset := offset, alpha := alpha, kTa := lit 0, failed := true, outlier := false }
  else do
    let offsetRem := sar (high &&& 0xFC#8).toInt 2
    let offset' ← arith16 m (offset + shl16 offsetRem offsetRemScale)
    let alphaRem := sar (shl16 (be16 (high &&& 0x03#8) low).toInt 6) 10
    let alpha' := (alpha +. ofInt (shl16 alphaRem alphaRemScale)) /. alphaScale
    let kTaRem := sar (shl8 (low &&& 0x0E#8).toInt 4) 5
    let num ← arith16 m (kTaRc + shl16 kTaRem kTaScale2)
    .ok { offset := offset', alpha := alpha', kTa := ofInt num /. kTaScale1, failed := false,
          outlier := isBitSet8 low 0 }

/-- The per-pixel loop (`mlx90640/eeprom.rs:340-375`) over the zipped initial values. -/
def pixelLoop {F ε : Type} [F32Ops F] (m : Mode) (offsetRemScale alphaRemScale kTaScale2 : Nat)
    (alphaScale kTaScale1 : F) : List ((Int × F) × Int) → Parser ε (List (PixelOut F))
  | [] => pure []
  | ((offset, alpha), kTaRc) :: rest => do
    let high ← getU8
    let low ← getU8
    let out ← Parser.lift (pixelStep m offsetRemScale alphaRemScale kTaScale2 alphaScale kTaScale1
      offset alpha kTaRc high low)
    let outs ← pixelLoop m offsetRemScale alphaRemScale kTaScale2 alphaScale kTaScale1 rest
    pure (out :: outs)

/-- `from_data` after the length check (`mlx90640/eeprom.rs:259-402`). The `u8` additions of 8, 27 and 30 to
nibbles cannot overflow and are written plainly, as are the `i16` operations of `v_dd_25` and
`offset_reference_cp`, whose operands are at most ten bits wide. -/
def parse {F : Type} [F32Ops F] (m : Mode) : Parser LibErr (Calibration F) := do
  advance (2 * 16)
  let (offsetPx, offsetRemScale, alphaPtatRaw) ← bulkPixelCalibration m
  let alphaPtat := alphaPtatRaw / 4 + 8
  let (alphaPxInt, alphaRemScale, alphaScaleExp) ← bulkPixelCalibration m
  let alphaPx : List F := alphaPxInt.map fun a => ofInt a
  let alphaScale : F := exp2 (ofInt (alphaScaleExp + 30 : Nat))
  let gain ← getI16
  let vptat25 ← getI16
  let (kVptatRaw, ktBytes) ← word610Split
  let kVptat : F := ofInt kVptatRaw /. lit 4096
  let ktRaw ← Parser.lift (i16FromBits m ktBytes 10)
  let kTptat : F := ofInt ktRaw /. lit 8
  let kVddRaw ← getI8
  let kVdd := shl16 kVddRaw 5
  let vdd25Raw ← getU8
  let vdd25 : Int := ((vdd25Raw.toNat : Int) - 256) * 32 - 8192
  let kVAvg ← wordToI4s
  let (ilCp, ilPixels) ← accessPatternCorrections m
  let kTaRcs ← generateKTaPixels
  let u ← wordToU4s
  let resolution ← Parser.lift (Resolution.fromRaw (BitVec.ofNat 16 (u.1 % 4)))
  let kVScale : F := exp2 (ofInt (u.2.1 : Nat))
  let kTaScale1 : F := exp2 (ofInt (u.2.2.1 + 8 : Nat))
  let kTaScale2 := u.2.2.2
  let kVPattern : F × F × F × F :=
    (ofInt kVAvg.1 /. kVScale, ofInt kVAvg.2.1 /. kVScale, ofInt kVAvg.2.2.1 /. kVScale,
     ofInt kVAvg.2.2.2 /. kVScale)
  let (alphaCpRatioRaw, alphaCpBytes) ← word610Split
  let alphaCpRatio : F := ofInt alphaCpRatioRaw /. exp2 (lit 7)
  let alphaScaleCp : F := exp2 (ofInt (alphaScaleExp + 27 : Nat))
  let alphaCpWord ← Parser.lift (u16OfBytes alphaCpBytes)
  let alphaCp0 : F := ofInt (alphaCpWord.toNat : Int) /. alphaScaleCp
  let alphaCp1 : F := alphaCp0 *. (lit 1 +. alphaCpRatio)
  let (offsetCpDelta, offsetCpBytes) ← word610Split
  let offsetCp0 ← Parser.lift (i16FromBits m offsetCpBytes 10)
  let offsetCp1 := offsetCp0 + offsetCpDelta
  let kVCpRaw ← getI8
  let kTaCpRaw ← getI8
  let kSTaRaw ← getI8
  let tgcRaw ← getI8
  let tgc : Option F := if tgcRaw = 0 then none else some (ofInt tgcRaw /. exp2 (lit 5))
  let (cornerTemps, kSTo) ← temperatureRangeData
  let alphaCorrection ← Parser.lift
    (alphaCorrectionCoefficients m numCornerTemps cam.basicRange cornerTemps kSTo)
  let outs ← pixelLoop m offsetRemScale alphaRemScale kTaScale2 alphaScale kTaScale1
    ((offsetPx.zip alphaPx).zip kTaRcs)
  pure {
    kVdd := kVdd, vdd25 := vdd25, resolution := resolution, kVptat := kVptat, kTptat := kTptat,
    vptat25 := ofInt vptat25, alphaPtat := ofInt (alphaPtat : Nat), gain := ofInt gain,
    kSTa := ofInt kSTaRaw /. exp2 (lit 13),
    cornerTemps := cornerTemps, kSTo := kSTo, alphaCorrection := alphaCorrection,
    alphaPixels := outs.map (·.alpha), alphaCp := (alphaCp0, alphaCp1),
    offsetPixels := outs.map (·.offset), offsetCp := (offsetCp0, offsetCp1),
    kVPattern := kVPattern, kVCp := ofInt kVCpRaw /. kVScale,
    kTaPixels := outs.map (·.kTa), kTaCp := ofInt kTaCpRaw /. kTaScale1,
    tgc := tgc, ilPixels := ilPixels, ilCp := ilCp,
    failed := outs.map (·.failed), outlier := outs.map (·.outlier) }

/-- `Mlx90640Calibration::from_data` (`mlx90640/eeprom.rs:251-403`). The length check compares a number of
bytes with a difference of word addresses. -/
def fromData {F : Type} [F32Ops F] (m : Mode) (data : List Byte) : Res LibErr (Calibration F) :=
  if data.length < eepromEnd - eepromBase then
    .err (.other "Not enough space left in buffer to be a full EEPROM dump")
  else
    match parse m data with
    | .ok (c, _) => .ok c
    | .err e => .err e
    | .panic => .panic

/-- `ChessboardIter` (`mlx90640/eeprom.rs:524-562`): its `NUM_PIXELS` items. -/
def chessboardIter {α : Type} (src : α × α × α × α) : List α :=
  (List.range numPixels).map fun index =>
    let row := index / width
    let column := index % width
    match row % 2 == 0, column % 2 == 0 with
    | true, true => src.1
    | false, true => src.2.1
    | true, false => src.2.2.1
    | false, false => src.2.2.2

/-- `PixelAccessPatternCompensation` (`mlx90640/eeprom.rs:615-661`): its items. -/
def accessPatternCompensation {F : Type} (patterns : (F × F × F) × (F × F × F)) :
    AccessPattern → List (Option F)
  | .chess => List.replicate numPixels none
  | .interleave => (List.range numPixels).map fun index =>
      let row := if index / width % 2 = 0 then patterns.1 else patterns.2
      match index % 4 with
      | 0 => some row.1
      | 1 => some row.2.1
      | 2 => some row.1
      | _ => some row.2.2

/-- `impl CalibrationData for Mlx90640Calibration` (`mlx90640/eeprom.rs:425-521`). -/
def Calibration.toCalib {F : Type} [F32Ops F] (c : Calibration F) : Calib F where
  cam := cam
  kVdd := c.kVdd
  vdd25 := c.vdd25
  resolution := c.resolution
  vdd0 := lit (33/10)
  kVptat := c.kVptat
  kTptat := c.kTptat
  vptat25 := c.vptat25
  alphaPtat := c.alphaPtat
  gain := c.gain
  kSTa := c.kSTa
  cornerTemps := c.cornerTemps
  kSTo := c.kSTo
  alphaCorrection := c.alphaCorrection
  emissivity := none
  offsetRef := fun _ => c.offsetPixels
  offsetRefCp := fun s => match s with | .zero => c.offsetCp.1 | .one => c.offsetCp.2
  alpha := fun _ => c.alphaPixels
  alphaCp := fun s => match s with | .zero => c.alphaCp.1 | .one => c.alphaCp.2
  kV := fun _ => chessboardIter c.kVPattern
  kVCp := fun _ => c.kVCp
  kTa := fun _ => c.kTaPixels
  kTaCp := fun _ => c.kTaCp
  tgc := c.tgc
  apComp := accessPatternCompensation c.ilPixels
  apCompCp := fun s a => match s, a with
    | .one, .interleave => some c.ilCp
    | _, _ => none
  failed := c.failed
  outlier := c.outlier

end Mlx.Mlx90640
