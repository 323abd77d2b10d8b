import Verif.Spec.Session
import Verif.Spec.Heard
/-
Cameras that measure at any time, and their data hold.
-/
set_option autoImplicit false
namespace Mlx.Spec
open Mlx
variable {F σ ER EW : Type}

/-- The camera holds its data: data hold (bit 2 of the control register) is on, overwriting (bit 4 of the status register) is off. -/
def Held (M : Word → Word) : Prop := (M 0x800D#16).getLsbD 2 = true ∧ (M 0x8000#16).getLsbD 4 = false

/-- The same words in RAM. -/
def SameRam (M M' : Word → Word) : Prop := ∀ a : Word, 0x0400 ≤ a.toNat → a.toNat < 0x0800 → M' a = M a

/-- What the memory of a camera may become when it runs for a while, in which it may finish any number of measurements: these change
RAM and status register at will, except for the overwrite bit, which is the user's; and, if the camera holds its data, not the RAM. -/
structure Runs (M M' : Word → Word) : Prop where
  fixed : ∀ a, ¬ Volatile a → M' a = M a
  overwrite : (M' 0x8000#16).getLsbD 4 = (M 0x8000#16).getLsbD 4
  hold : Held M → SameRam M M'

/-- Another rule for what may become of the memory: measurements change RAM and status register at will, but set the new-data flag
(bit 3 of the status register), which the camera never clears. -/
structure RunsFlagged (M M' : Word → Word) : Prop where
  fixed : ∀ a, ¬ Volatile a → M' a = M a
  flag : (SameRam M M' ∧ (M' 0x8000#16).getLsbD 3 = (M 0x8000#16).getLsbD 3) ∨ (M' 0x8000#16).getLsbD 3 = true

/-- A camera that runs freely, behind a bus with any errors: each successful read returns what its memory held at the time of the
transaction, each write arrives (a failed one possibly), and between any two transactions the camera may measure, by the given rule. -/
structure FreeRunning (runs : (Word → Word) → (Word → Word) → Prop) (b : Bus σ ER EW) (addr : Byte) (mem : σ → Word → Word) : Prop where
  read_data : ∀ s base buf, (b.writeRead s addr (toBe base) buf).2.2 = none →
    (b.writeRead s addr (toBe base) buf).2.1 = memBytes (mem s) base buf.length
  read : ∀ s base buf, runs (mem s) (mem (b.writeRead s addr (toBe base) buf).1)
  write_ok : ∀ s reg v, (b.write s addr (toBe reg ++ toBe v)).2 = none →
    runs (setWord (mem s) reg v) (mem (b.write s addr (toBe reg ++ toBe v)).1)
  write_err : ∀ s reg v, (b.write s addr (toBe reg ++ toBe v)).2 ≠ none →
    runs (mem s) (mem (b.write s addr (toBe reg ++ toBe v)).1) ∨
    runs (setWord (mem s) reg v) (mem (b.write s addr (toBe reg ++ toBe v)).1)

/-- One more rule, for memory and number of measurements finished so far: unless a measurement finishes, RAM and new-data flag stay;
a measurement sets the flag. -/
structure RunsCounted (M : Word → Word) (n : Nat) (M' : Word → Word) (n' : Nat) : Prop where
  fixed : ∀ a, ¬ Volatile a → M' a = M a
  measured : (n' = n ∧ SameRam M M' ∧ (M' 0x8000#16).getLsbD 3 = (M 0x8000#16).getLsbD 3) ∨
    (n < n' ∧ (M' 0x8000#16).getLsbD 3 = true)

/-- A camera that runs freely, whose measurements are counted. -/
structure Counting (b : Bus σ ER EW) (addr : Byte) (mem : σ → Word → Word) (count : σ → Nat) : Prop where
  read_data : ∀ s base buf, (b.writeRead s addr (toBe base) buf).2.2 = none →
    (b.writeRead s addr (toBe base) buf).2.1 = memBytes (mem s) base buf.length
  read : ∀ s base buf, RunsCounted (mem s) (count s) (mem (b.writeRead s addr (toBe base) buf).1)
    (count (b.writeRead s addr (toBe base) buf).1)
  write_ok : ∀ s reg v, (b.write s addr (toBe reg ++ toBe v)).2 = none →
    RunsCounted (setWord (mem s) reg v) (count s) (mem (b.write s addr (toBe reg ++ toBe v)).1)
      (count (b.write s addr (toBe reg ++ toBe v)).1)
  write_err : ∀ s reg v, (b.write s addr (toBe reg ++ toBe v)).2 ≠ none →
    RunsCounted (mem s) (count s) (mem (b.write s addr (toBe reg ++ toBe v)).1) (count (b.write s addr (toBe reg ++ toBe v)).1) ∨
    RunsCounted (setWord (mem s) reg v) (count s) (mem (b.write s addr (toBe reg ++ toBe v)).1)
      (count (b.write s addr (toBe reg ++ toBe v)).1)

/-- The calls that may end the holding of data: switching data hold off, switching overwriting on, and `synchronize` (which switches
overwriting on). -/
def Thaws : Op F → Prop
  | .setDataHold false => True
  | .setOverwriteEnabled true => True
  | .synchronize _ => True
  | _ => False

/-- The calls that write the status register. -/
def WritesStatus : Op F → Prop
  | .setOverwriteEnabled _ => True
  | .resetDataAvailable => True
  | .generateImageIfReady _ => True
  | .synchronize _ => True
  | _ => False

/-- A driver in use with a camera that runs freely: any calls, with any outcomes, between which (as well as during which) the camera
runs. The list has the calls with their outcomes in order. -/
inductive InUse [F32Ops F] (runs : (Word → Word) → (Word → Word) → Prop) (env : Env σ ER EW) (mem : σ → Word → Word) (d : Driver F σ) :
    List (Op F × Res (Err ER EW) Unit) → Driver F σ → Prop
  | start : InUse runs env mem d [] d
  | call {calls : List (Op F × Res (Err ER EW) Unit)} {d1 : Driver F σ} (op : Op F) :
      InUse runs env mem d calls d1 → InUse runs env mem d (calls ++ [(op, (op.exec env d1).2)]) (op.exec env d1).1
  | later {calls : List (Op F × Res (Err ER EW) Unit)} {d1 : Driver F σ} (s : σ) :
      InUse runs env mem d calls d1 → runs (mem d1.bus) (mem s) → InUse runs env mem d calls { d1 with bus := s }

/-- A driver in use with a camera that runs freely, and how many calls of `generate_image_if_ready` have returned `Ok(true)`. -/
inductive Polled [F32Ops F] (env : Env σ ER EW) (mem : σ → Word → Word) (count : σ → Nat) (d : Driver F σ) :
    Nat → Driver F σ → Prop
  | start : Polled env mem count d 0 d
  | call {images : Nat} {d1 : Driver F σ} (op : Op F) : Polled env mem count d images d1 → Polled env mem count d images (op.exec env d1).1
  | image {images : Nat} {d1 d2 : Driver F σ} {dest dest' : List F} : Polled env mem count d images d1 →
      Driver.generateImageIfReady env dest d1 = (d2, dest', .ok true) → Polled env mem count d (images + 1) d2
  | later {images : Nat} {d1 : Driver F σ} (s : σ) : Polled env mem count d images d1 →
      RunsCounted (mem d1.bus) (count d1.bus) (mem s) (count s) → Polled env mem count d images { d1 with bus := s }

/-- The same driver on a camera that does nothing but hold the memory `M`. -/
def Driver.onStill (d : Driver F σ) (M : Word → Word) : Driver F (Word → Word) :=
  { bus := M, addr := d.addr, calib := d.calib, pixelBuf := d.pixelBuf, resCorr := d.resCorr,
    ambient := d.ambient, emissivity := d.emissivity, accessPattern := d.accessPattern, reflected := d.reflected }

/-- A camera that runs freely by a schedule: with the n-th transaction from now it may finish a measurement, which has the RAM
`schedule n` and is of subpage 0 or 1, as bit 0 of `schedule n 0x8000` says. -/
structure ScheduledCamera where
  now : SimpleCamera
  schedule : Nat → Option (Word → Word)

/-- A measurement: RAM is overwritten unless it is held; the status register names the subpage and has a new frame. -/
def measurement (M next : Word → Word) : Word → Word := fun a =>
  if a = 0x8000#16 then (M a &&& 0xFFF0#16) ||| (next a &&& 0x0001#16) ||| 0x0008#16
  else if 0x0400 ≤ a.toNat ∧ a.toNat < 0x0800 then
    if (M 0x800D#16).getLsbD 2 && !(M 0x8000#16).getLsbD 4 then M a else next a
  else M a

/-- One transaction later. -/
def ScheduledCamera.tick (c : ScheduledCamera) (now : SimpleCamera) : ScheduledCamera where
  now := match c.schedule 0 with
    | some next => { now with mem := measurement now.mem next }
    | none => now
  schedule n := c.schedule (n + 1)

/-- A bus with a camera that runs freely. -/
def scheduledBus : Bus ScheduledCamera Unit Unit where
  writeRead c addr out buf :=
    let r := simpleBus.writeRead c.now addr out buf
    (c.tick r.1, r.2)
  write c addr out :=
    let r := simpleBus.write c.now addr out
    (c.tick r.1, r.2)
  length_eq c addr out buf := simpleBus.length_eq c.now addr out buf

/-- A bus with a camera that runs freely, and the number of measurements it has finished. -/
def countedBus : Bus (ScheduledCamera × Nat) Unit Unit where
  writeRead c addr out buf :=
    let r := scheduledBus.writeRead c.1 addr out buf
    ((r.1, c.2 + if (c.1.schedule 0).isSome then 1 else 0), r.2)
  write c addr out :=
    let r := scheduledBus.write c.1 addr out
    ((r.1, c.2 + if (c.1.schedule 0).isSome then 1 else 0), r.2)
  length_eq c addr out buf := scheduledBus.length_eq c.1 addr out buf

end Mlx.Spec
