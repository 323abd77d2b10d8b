import Verif.Spec.Session
/-
The settings kept by a camera, and programs that are killed.
-/
set_option autoImplicit false
namespace Mlx.Spec
open Mlx
variable {F σ ER EW : Type}

/-- The value that a call asks a field of the control register to take. -/
def asks : Op F → (f : CtrlField) → Option f.Val
  | .setUseSubpages v, .useSubpages => some v
  | .setDataHold v, .dataHold => some v
  | .setSubpageRepeat v, .subpageRepeat => some v
  | .setSubpage v, .subpage => some v
  | .setFrameRate v, .frameRate => some v
  | .setResolution v, .resolution => some v
  | .setAccessPattern v, .accessPattern => some v
  | _, _ => none

/-- The value that the last of those calls asked for that set the field and returned `Ok`. -/
def lastSet (f : CtrlField) : List (Op F × Res (Err ER EW) Unit) → Option f.Val
  | [] => none
  | (op, outcome) :: later =>
    match lastSet f later, outcome with
    | some v, _ => some v
    | none, .ok () => asks op f
    | none, _ => none

/-- The bus as a camera sees it whose user is killed: the first `left` transactions are those of `b`, and none of the later
ones takes place. -/
def mortal (b : Bus σ ER EW) (er : ER) (ew : EW) : Bus (σ × Nat) ER EW where
  writeRead s addr out buf :=
    match s.2 with
    | 0 => (s, buf, some er)
    | left + 1 => (((b.writeRead s.1 addr out buf).1, left), (b.writeRead s.1 addr out buf).2)
  write s addr bytes :=
    match s.2 with
    | 0 => (s, some ew)
    | left + 1 => (((b.write s.1 addr bytes).1, left), (b.write s.1 addr bytes).2)
  length_eq s addr out buf := by
    cases s.2 with
    | zero => rfl
    | succ left => exact b.length_eq s.1 addr out buf

/-- The driver of a program that will be killed after `left` more transactions. -/
def mortalDriver (d : Driver F σ) (left : Nat) : Driver F (σ × Nat) :=
  { bus := (d.bus, left), addr := d.addr, calib := d.calib, pixelBuf := d.pixelBuf, resCorr := d.resCorr,
    ambient := d.ambient, emissivity := d.emissivity, accessPattern := d.accessPattern, reflected := d.reflected }

end Mlx.Spec
