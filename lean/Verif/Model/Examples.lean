import Verif.Model.Driver
/-
The two example programs (`mlx9064x/examples/`) and the example in the crate's documentation. The command line, formatting of numbers and output other than as described
are not modelled.
-/
set_option autoImplicit false
namespace Mlx
variable {F σ ER EW : Type}

/-! ### `terminal-temperatures.rs` -/

/-- The value of a digit for `u8::from_str_radix` of the standard library (called in `terminal-temperatures.rs:19,21`). -/
def digitValue (radix : Nat) (c : Char) : Option Nat :=
  let v :=
    if '0' ≤ c ∧ c ≤ '9' then some (c.toNat - '0'.toNat)
    else if 'a' ≤ c ∧ c ≤ 'z' then some (c.toNat - 'a'.toNat + 10)
    else if 'A' ≤ c ∧ c ≤ 'Z' then some (c.toNat - 'A'.toNat + 10)
    else none
  v.filter (· < radix)

/-- The loop of `u8::from_str_radix` (`terminal-temperatures.rs:19,21`): an error on a bad digit and on overflow. -/
def parseDigits (radix : Nat) : Nat → List Char → Option Nat
  | acc, [] => some acc
  | acc, c :: cs =>
    match digitValue radix c with
    | none => none
    | some v => if acc * radix + v < 256 then parseDigits radix (acc * radix + v) cs else none

/-- `u8::from_str_radix`, `str::parse` (`terminal-temperatures.rs:19,21`): an optional plus sign, at least one digit. -/
def parseU8 (radix : Nat) : List Char → Option Nat
  | [] => none
  | ['+'] => none
  | ['-'] => none
  | '+' :: cs => parseDigits radix 0 cs
  | cs => parseDigits radix 0 cs

/-- The third argument, the camera's address (`terminal-temperatures.rs:17-22`, `true-frame-rate.rs:20-25`). -/
def parseAddress (arg : List Char) : Option Nat :=
  if ['0', 'x'].isPrefixOf arg then parseU8 16 (arg.drop 2) else parseU8 10 arg

/-- `print_temperatures` (`terminal-temperatures.rs:55-62`); `format` is `{:4.2}`. -/
def printTemperatures (format : F → List Char) (temperatures : List F) (width : Nat) : List Char :=
  temperatures.zipIdx.flatMap fun (t, count) =>
    (if count % width = 0 then ['\n'] else []) ++ (format t ++ [' ', ' '])

/-- `main` after the arguments have been evaluated (`terminal-temperatures.rs:25-52`): the state of the bus at the end and the
text printed. `make` makes the driver, `sleep` is what happens on the bus during `thread::sleep`. -/
def terminalTemperatures [F32Ops F] (m : Mode) (make : Bus σ ER EW → σ → Byte → σ × Res (Err ER EW) (Driver F σ))
    (height width : Nat) (b : Bus σ ER EW) (sleep : σ → σ) (format : F → List Char) (s : σ) (addr : Byte) :
    σ × Res (Err ER EW) (List Char) :=
  match make b s addr with
  | (s1, .err e) => (s1, .err e)
  | (s1, .panic) => (s1, .panic)
  | (_, .ok camera) =>
    let temperatures := List.replicate (height * width) (F32Ops.lit 0)
    match Driver.generateImageIfReady ⟨m, height, b⟩ temperatures camera with
    | (camera, _, .err e) => (camera.bus, .err e)
    | (camera, _, .panic) => (camera.bus, .panic)
    | (camera, temperatures, .ok _) =>
      let camera := { camera with bus := sleep camera.bus }
      match Driver.generateImageIfReady ⟨m, height, b⟩ temperatures camera with
      | (camera, _, .err e) => (camera.bus, .err e)
      | (camera, _, .panic) => (camera.bus, .panic)
      | (camera, temperatures, .ok _) => (camera.bus, .ok (printTemperatures format temperatures width ++ ['\n']))

/-! ### The quick start of the crate's documentation -/

/-- The example in the documentation of the crate (`lib.rs:17-35`): the state of the bus at the end and the contents of the
buffer `temperatures`. `make` makes the driver, `sleep` is what happens on the bus during `thread::sleep` of the duration of a
frame (`FrameRate.frameSecs`). -/
def quickStart [F32Ops F] (m : Mode) (make : Bus σ ER EW → σ → Byte → σ × Res (Err ER EW) (Driver F σ))
    (height width : Nat) (b : Bus σ ER EW) (sleep : FrameRate → σ → σ) (s : σ) (addr : Byte) :
    σ × Res (Err ER EW) (List F) :=
  match make b s addr with
  | (s1, .err e) => (s1, .err e)
  | (s1, .panic) => (s1, .panic)
  | (_, .ok camera) =>
    match Driver.frameRate ⟨m, height, b⟩ camera with
    | (camera, .err e) => (camera.bus, .err e)
    | (camera, .panic) => (camera.bus, .panic)
    | (camera, .ok frameRate) =>
      let temperatures := List.replicate (height * width) (F32Ops.lit 0)
      match Driver.generateImageIfReady ⟨m, height, b⟩ temperatures camera with
      | (camera, _, .err e) => (camera.bus, .err e)
      | (camera, _, .panic) => (camera.bus, .panic)
      | (camera, temperatures, .ok _) =>
        let camera := { camera with bus := sleep frameRate camera.bus }
        match Driver.generateImageIfReady ⟨m, height, b⟩ temperatures camera with
        | (camera, _, .err e) => (camera.bus, .err e)
        | (camera, _, .panic) => (camera.bus, .panic)
        | (camera, temperatures, .ok _) => (camera.bus, .ok temperatures)

/-! ### `true-frame-rate.rs` -/

section
variable [F32Ops F] (env : Env σ ER EW) (now : σ → Nat)

/-- `Instant::now()` (`true-frame-rate.rs:140`): a function of the state of the bus (of the world). -/
def instantNow : DM F σ ER EW Nat := fun d => (d, .ok (now d.bus))

/-- The inner loop of `find_frequency` (`true-frame-rate.rs:137-144`), at most `fuel` rounds (`none` when they are used up; the real
loop goes on). -/
def nextFrame (last : Subpage) : Nat → DM F σ ER EW (Option (Subpage × Nat))
  | 0 => pure none
  | fuel + 1 => do
    let current ← Driver.lastMeasuredSubpage env
    if current ≠ last then do
      let t ← instantNow now
      pure (some (current, t))
    else nextFrame last fuel

/-- The outer loop (`true-frame-rate.rs:136-145`). -/
def nextFrames (fuel : Nat) : Nat → Subpage → DM F σ ER EW (Option (List Nat))
  | 0, _ => pure (some [])
  | n + 1, last => do
    match ← nextFrame env now last fuel with
    | none => pure none
    | some (current, t) =>
      match ← nextFrames fuel n current with
      | none => pure none
      | some ts => pure (some (t :: ts))

/-- `find_frequency` (`true-frame-rate.rs:114-147`). -/
def findFrequency (fuel n : Nat) : DM F σ ER EW (Option (List Nat)) := do
  let last ← Driver.lastMeasuredSubpage env
  nextFrames env now fuel n last

end

/-- `windows(2)` (`true-frame-rate.rs:54,86`). -/
def windows2 {α : Type} : List α → List (α × α)
  | a :: b :: l => (a, b) :: windows2 (b :: l)
  | _ => []

/-- The durations between instants (`true-frame-rate.rs:53-62`), in nanoseconds. `duration_since` saturates. -/
def durationsOf (instants : List Nat) : List Nat := (windows2 instants).map fun (a, b) => b - a

/-- What the program computes of the durations (`true-frame-rate.rs:69-110`). -/
structure Statistics where
  min : Nat
  max : Nat
  mean : Nat
  median : Nat
  mode : Nat

/-- The step of the fold that finds the mode (`true-frame-rate.rs:95-107`). -/
def modeStep : Nat × Nat × Nat → Nat × Nat → Nat × Nat × Nat
  | (mode, modeCount, currentCount), (prev, current) =>
    if current ≠ prev then (mode, modeCount, 1)
    else if currentCount + 1 > modeCount then (current, currentCount + 1, currentCount + 1)
    else (mode, modeCount, currentCount + 1)

/-- The statistics (`true-frame-rate.rs:63-110`), `none` if the program panics: `unwrap` of the first of no durations.
Simplified: there are fewer than 2³² durations, and their sum fits `Duration` (584 billion years). -/
def statistics (durations : List Nat) : Option Statistics :=
  let sorted := durations.mergeSort
  match sorted.head?, sorted.getLast? with
  | some min, some max =>
    let middle := sorted.length / 2
    let median := if sorted.length % 2 = 0 then ((sorted.drop middle).take 1).sum / 2 else sorted.getD middle 0
    some { min := min, max := max, mean := durations.sum / durations.length, median := median,
           mode := ((windows2 sorted).foldl modeStep (min, 1, 1)).1 }
  | _, _ => none

end Mlx
