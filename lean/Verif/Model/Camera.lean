import Verif.Model.Register
/-
Model of `MelexisCamera` (`common.rs:289-375`) and its two implementations
(`mlx90640/mod.rs`, `mlx90641/mod.rs`, RAM addresses in `mlx9064*/address.rs`).
-/
set_option autoImplicit false
namespace Mlx

/-- `PixelAddressRange` (`common.rs:366-375`). -/
structure PixelRange where
  startAddress : Nat
  bufferOffset : Nat
  length : Nat
  deriving DecidableEq, Repr

/-- A Rust iterator of pixel ranges: `next` returns the item and the new state, `none` at the end.
`next` may panic on arithmetic overflow. -/
structure RangeIter where
  State : Type
  init : State
  next : State → Res Empty (Option (PixelRange × State))

/-- Collecting at most `cap` more items (`ArrayVec::from_iter`, `common.rs:427-430`): when the iterator
yields another item although the capacity is used up, `ArrayVec` panics. -/
def RangeIter.collectFrom {ε : Type} (it : RangeIter) : Nat → it.State → Res ε (List PixelRange)
  | cap, s =>
    match it.next s with
    | .panic => .panic
    | .err e => nomatch e
    | .ok none => .ok []
    | .ok (some (r, s')) =>
      match cap with
      | 0 => .panic
      | cap + 1 =>
        match it.collectFrom cap s' with
        | .ok rs => .ok (r :: rs)
        | .err e => .err e
        | .panic => .panic

/-- Collect a whole iterator into an `ArrayVec` of capacity `cap`. -/
def RangeIter.collect {ε : Type} (it : RangeIter) (cap : Nat) : Res ε (List PixelRange) :=
  it.collectFrom cap it.init

/-- The constants and functions of `MelexisCamera` (`common.rs:289-362`).
`resolution_correction` is the same for both cameras and modelled separately (`resolutionCorrection`). -/
structure Cam where
  /-- `pixel_ranges`, collected into an `ArrayVec` of the given capacity (the only use made of it,
  `common.rs:427-430`) -/
  collectRanges : Mode → Subpage → AccessPattern → Nat → Res Empty (List PixelRange)
  /-- `pixels_in_subpage`, the sequence of all items the iterator yields. -/
  pixelsInSubpage : Subpage → AccessPattern → List Bool
  /-- `T_A_V_BE` -/
  tAVbe : Word
  /-- `T_A_PTAT` -/
  tAPtat : Word
  /-- `compensation_pixel` -/
  compensationPixel : Subpage → Word
  /-- `GAIN` -/
  gain : Word
  /-- `V_DD_PIXEL` -/
  vddPixel : Word
  /-- `BASIC_TEMPERATURE_RANGE` -/
  basicRange : Nat
  /-- `SELF_HEATING` -/
  selfHeating : Rat
  /-- `HEIGHT` -/
  height : Nat
  /-- `WIDTH` -/
  width : Nat

/-- `NUM_PIXELS = HEIGHT * WIDTH` (`mlx90640/mod.rs:83`, `mlx90641/mod.rs:86`). -/
def Cam.numPixels (c : Cam) : Nat := c.height * c.width

/-- `resolution_correction` (`mlx90640/mod.rs:62-71`, `mlx90641/mod.rs:65-74`): the raw values are cast to
`i8` and subtracted (`-3..=3`, no overflow), then `2^x` is taken in floating point. -/
def resolutionCorrection {F : Type} [F32Ops F] (calibrated current : Resolution) : F :=
  F32Ops.exp2 (F32Ops.ofInt ((calibrated.asRaw.setWidth 8).toInt - (current.asRaw.setWidth 8).toInt))

namespace Mlx90640

/-- `Mlx90640::HEIGHT`, `WIDTH`, `NUM_PIXELS` (`mlx90640/mod.rs:79-83`). -/
def height : Nat := 24
def width : Nat := 32
def numPixels : Nat := height * width

/-- `RamAddress` (`mlx90640/address.rs:124-150`). -/
def ramBase : Nat := 0x0400
def ramTaVbe : Word := 0x0700#16
def ramCp0 : Word := 0x0708#16
def ramGain : Word := 0x070A#16
def ramTaPtat : Word := 0x0720#16
def ramCp1 : Word := 0x0728#16
def ramVdd : Word := 0x072A#16

/-- State of `Mlx90640Pixels` (`mlx90640/mod.rs:92-97`): `iter::once` as an `Option`, or an offset. -/
inductive PixelsState where
  | chess (pending : Option PixelRange)
  | interleave (currentOffset : Nat)

/-- `Mlx90640Pixels::new` (`mlx90640/mod.rs:100-119`). -/
def pixelsNew (s : Subpage) : AccessPattern → PixelsState
  | .chess => .chess (some { startAddress := ramBase, bufferOffset := 0, length := numPixels * 2 })
  | .interleave => .interleave (match s with | .zero => 0 | .one => width)

/-- `Iterator for Mlx90640Pixels` (`mlx90640/mod.rs:122-146`); all sums are `u16`. -/
def pixelsNext (m : Mode) : PixelsState → Res Empty (Option (PixelRange × PixelsState))
  | .chess none => .ok none
  | .chess (some r) => .ok (some (r, .chess none))
  | .interleave off =>
    if off < numPixels then do
      let start ← arithU16 m (ramBase + off)
      let dbl ← arithU16 m (off * 2)
      let w2 ← arithU16 m (width * 2)
      let off' ← arithU16 m (off + w2)
      .ok (some ({ startAddress := start, bufferOffset := dbl, length := width * 2 },
        .interleave off'))
    else .ok none

/-- `Mlx90640::pixel_ranges` (`mlx90640/mod.rs:35-37`). -/
def pixelRanges (m : Mode) (s : Subpage) (a : AccessPattern) : RangeIter :=
  { State := PixelsState, init := pixelsNew s a, next := pixelsNext m }

/-- One item of `Mlx90640PixelSubpage` (`mlx90640/mod.rs:177-191`). -/
def inSubpage (s : Subpage) (a : AccessPattern) (index : Nat) : Bool :=
  let row := index / width
  let column := index % width
  match a with
  | .chess => if s.toNat = 0 then row % 2 == column % 2 else row % 2 != column % 2
  | .interleave => row % 2 == s.toNat

/-- `Mlx90640::pixels_in_subpage` (`mlx90640/mod.rs:39-44`, `164-196`): the counter `index` runs from 0 to
`NUM_PIXELS - 1`. Simplification: the iterator is given by the list of its items. -/
def pixelsInSubpage (s : Subpage) (a : AccessPattern) : List Bool :=
  (List.range numPixels).map (inSubpage s a)

/-- `impl MelexisCamera for Mlx90640` (`mlx90640/mod.rs:31-84`). -/
def cam : Cam where
  collectRanges := fun m s a cap => (pixelRanges m s a).collect cap
  pixelsInSubpage := pixelsInSubpage
  tAVbe := ramTaVbe
  tAPtat := ramTaPtat
  compensationPixel := fun s => match s with | .zero => ramCp0 | .one => ramCp1
  gain := ramGain
  vddPixel := ramVdd
  basicRange := 1
  selfHeating := 8
  height := height
  width := width

end Mlx90640

namespace Mlx90641

/-- `Mlx90641::HEIGHT`, `WIDTH`, `NUM_PIXELS` (`mlx90641/mod.rs:82-86`). -/
def height : Nat := 12
def width : Nat := 16
def numPixels : Nat := height * width

/-- `RamAddress` (`mlx90641/address.rs:124-149`). -/
def ramBase : Nat := 0x0400
def ramTaVbe : Word := 0x0580#16
def ramCp0 : Word := 0x0588#16
def ramGain : Word := 0x058A#16
def ramTaPtat : Word := 0x05A0#16
def ramCp1 : Word := 0x05A8#16
def ramVdd : Word := 0x05AA#16

/-- `SubpageInterleave` constants (`mlx90641/mod.rs:106-112`). -/
def strideLength : Nat := 32 * 2
def numStrides : Nat := height / 2

/-- State of `SubpageInterleave` (`mlx90641/mod.rs:90-93`). -/
structure StrideState where
  strideCount : Nat
  baseAddress : Nat

/-- `SubpageInterleave::new` (`mlx90641/mod.rs:114-124`). -/
def strideNew : Subpage → StrideState
  | .zero => { strideCount := 0, baseAddress := ramBase }
  | .one => { strideCount := 0, baseAddress := ramBase + strideLength / 2 }

/-- `Iterator for SubpageInterleave` (`mlx90641/mod.rs:127-146`); all sums and products are `u16`. -/
def strideNext (m : Mode) (st : StrideState) : Res Empty (Option (PixelRange × StrideState)) :=
  if st.strideCount < numStrides then do
    let prod ← arithU16 m (st.strideCount * strideLength)
    let start ← arithU16 m (st.baseAddress + prod)
    let count' ← arithU16 m (st.strideCount + 1)
    .ok (some ({ startAddress := start, bufferOffset := prod, length := strideLength },
      { st with strideCount := count' }))
  else .ok none

/-- `Mlx90641::pixel_ranges` (`mlx90641/mod.rs:36-39`): the access pattern is ignored. -/
def pixelRanges (m : Mode) (s : Subpage) (_ : AccessPattern) : RangeIter :=
  { State := StrideState, init := strideNew s, next := strideNext m }

/-- `Mlx90641::pixels_in_subpage` (`mlx90641/mod.rs:41-47`). -/
def pixelsInSubpage (_ : Subpage) (_ : AccessPattern) : List Bool := List.replicate numPixels true

/-- `impl MelexisCamera for Mlx90641` (`mlx90641/mod.rs:32-87`). -/
def cam : Cam where
  collectRanges := fun m s a cap => (pixelRanges m s a).collect cap
  pixelsInSubpage := pixelsInSubpage
  tAVbe := ramTaVbe
  tAPtat := ramTaPtat
  compensationPixel := fun s => match s with | .zero => ramCp0 | .one => ramCp1
  gain := ramGain
  vddPixel := ramVdd
  basicRange := 2
  selfHeating := 5
  height := height
  width := width

end Mlx90641
end Mlx
