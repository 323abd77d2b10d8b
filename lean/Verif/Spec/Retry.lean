import Verif.Spec.Hold
/-
Calls that are made again after errors.
-/
set_option autoImplicit false
namespace Mlx.Spec
open Mlx
variable {F σ ER EW : Type}

/-- A camera that does nothing but hold its memory, behind a bus with any errors: a write that is reported to have failed may have
arrived or not. -/
def FaultyMemory (b : Bus σ ER EW) (addr : Byte) (mem : σ → Word → Word) : Prop :=
  FreeRunning (fun M M' => M' = M) b addr mem

/-- The driver after the call `op` was made any number of times, and returned an error each time. -/
inductive Retried [F32Ops F] (env : Env σ ER EW) (op : Op F) (d : Driver F σ) : Driver F σ → Prop
  | start : Retried env op d d
  | again {d1 d2 : Driver F σ} {e : Err ER EW} : Retried env op d d1 → op.exec env d1 = (d2, .err e) → Retried env op d d2

/-- Driver and image buffer after an image method was called any number of times with this buffer, and returned an error each time. -/
inductive RetriedImage {α : Type} (call : List F → Driver F σ → Driver.ImageResult F σ ER EW α) (dest : List F) (d : Driver F σ) :
    List F → Driver F σ → Prop
  | start : RetriedImage call dest d dest d
  | again {dest1 dest2 : List F} {d1 d2 : Driver F σ} {e : Err ER EW} : RetriedImage call dest d dest1 d1 →
      call dest1 d1 = (d2, dest2, .err e) → RetriedImage call dest d dest2 d2

/-- The bus after the constructor `make` was called any number of times, and returned an error each time. -/
inductive RetriedNew (make : Bus σ ER EW → σ → Byte → σ × Res (Err ER EW) (Driver F σ)) (b : Bus σ ER EW) (addr : Byte) (s : σ) : σ → Prop
  | start : RetriedNew make b addr s s
  | again {s1 s2 : σ} {e : Err ER EW} : RetriedNew make b addr s s1 → make b s1 addr = (s2, .err e) → RetriedNew make b addr s s2

/-- What the constructor returned on a bus with errors (`faulty`), and what it returns on one without (`still`): the same driver, the same
error in the data, or a panic both times. Errors of the bus apart, in which case nothing is said. -/
inductive SameConstruction (mem : σ → Word → Word) : Res (Err ER EW) (Driver F σ) → Res (Err Unit Unit) (Driver F (Word → Word)) → Prop
  | driver (d : Driver F σ) : SameConstruction mem (.ok d) (.ok (Driver.onStill d (mem d.bus)))
  | data (e : LibErr) : SameConstruction mem (.err (.library e)) (.err (.library e))
  | panic : SameConstruction mem .panic .panic
  | bus (e : ER) (r : Res (Err Unit Unit) (Driver F (Word → Word))) : SameConstruction mem (.err (.i2cWriteRead e)) r

/-- The image methods, and `synchronize`. -/
def ImageOrSync : Op F → Prop
  | .generateRawImageSubpageTo _ _ => True
  | .generateImageSubpageTo _ _ => True
  | .generateImageTo _ => True
  | .generateImageIfReady _ => True
  | .synchronize _ => True
  | _ => False

/-- What may happen to a transaction. -/
inductive Fault where
  /-- All is well. -/
  | fine
  /-- It does not reach the camera. -/
  | lost
  /-- It reaches the camera, but what the camera answers does not come back. -/
  | unheard

/-- A bus with a camera that holds the memory `s.1`, where the n-th transaction from now has the fault `s.2 n`. -/
def faultyBus (addr : Byte) : Bus ((Word → Word) × (Nat → Fault)) Unit Unit where
  writeRead s a out buf :=
    match s.2 0 with
    | .fine => let r := (cameraBus addr).writeRead s.1 a out buf
      ((r.1, fun n => s.2 (n + 1)), r.2)
    | _ => ((s.1, fun n => s.2 (n + 1)), buf, some ())
  write s a out :=
    match s.2 0 with
    | .fine => let r := (cameraBus addr).write s.1 a out
      ((r.1, fun n => s.2 (n + 1)), r.2)
    | .unheard => ((((cameraBus addr).write s.1 a out).1, fun n => s.2 (n + 1)), some ())
    | .lost => ((s.1, fun n => s.2 (n + 1)), some ())
  length_eq s a out buf := by
    split
    · exact (cameraBus addr).length_eq s.1 a out buf
    · rfl

end Mlx.Spec
