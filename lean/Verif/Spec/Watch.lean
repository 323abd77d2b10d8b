import Verif.Spec.Session
import Verif.Spec.Thermometer
/-
Watching a camera: a buffer into which `generate_image_if_ready` is called again and again.
-/
set_option autoImplicit false
namespace Mlx.Spec
open Mlx
variable {F σ ER EW : Type} [F32Ops F]

/-- What happens while somebody watches a camera. -/
inductive Event (F ER EW : Type) where
  /-- The camera finished a measurement; its memory is now `M`. -/
  | measured (M : Word → Word)
  /-- Any method was called; if it makes an image, in another buffer. -/
  | call (op : Op F) (outcome : Res (Err ER EW) Unit)
  /-- `generate_image_if_ready` returned `Ok(true)`; when it was called the camera's memory was `M` and the settings for
  emissivity and reflected temperature were these. -/
  | image (M : Word → Word) (emissivity : F) (reflected : Option F)
  /-- `generate_image_if_ready` returned `Ok(false)`. -/
  | idle
  /-- `generate_image_if_ready` returned an error; when it was called the camera's memory was `M` and the settings were these. -/
  | failed (M : Word → Word) (emissivity : F) (reflected : Option F) (e : Err ER EW)

/-- From the driver `d` and the buffer `dest`, with these events, one gets to that driver and that buffer. The camera
finishes measurements at any time between calls: it then changes its RAM and its status register at will, but always sets
the new-data flag (bit 3 of the status register). -/
inductive Watch (env : Env σ ER EW) (mem : σ → Word → Word) (d : Driver F σ) (dest : List F) :
    List (Event F ER EW) → Driver F σ → List F → Prop
  | start : Watch env mem d dest [] d dest
  | measured {events : List (Event F ER EW)} {d1 : Driver F σ} {dest1 : List F} (s : σ) :
      Watch env mem d dest events d1 dest1 →
      (∀ a, ¬ Volatile a → mem s a = mem d1.bus a) → (mem s 0x8000#16).getLsbD 3 = true →
      Watch env mem d dest (events ++ [.measured (mem s)]) { d1 with bus := s } dest1
  | call {events : List (Event F ER EW)} {d1 : Driver F σ} {dest1 : List F} (op : Op F) :
      Watch env mem d dest events d1 dest1 →
      Watch env mem d dest (events ++ [.call op (op.exec env d1).2]) (op.exec env d1).1 dest1
  | image {events : List (Event F ER EW)} {d1 d2 : Driver F σ} {dest1 dest2 : List F} :
      Watch env mem d dest events d1 dest1 →
      Driver.generateImageIfReady env dest1 d1 = (d2, dest2, .ok true) →
      Watch env mem d dest (events ++ [.image (mem d1.bus) d1.effectiveEmissivity d1.reflectedTemperature]) d2 dest2
  | idle {events : List (Event F ER EW)} {d1 d2 : Driver F σ} {dest1 dest2 : List F} :
      Watch env mem d dest events d1 dest1 →
      Driver.generateImageIfReady env dest1 d1 = (d2, dest2, .ok false) →
      Watch env mem d dest (events ++ [.idle]) d2 dest2
  | failed {events : List (Event F ER EW)} {d1 d2 : Driver F σ} {dest1 dest2 : List F} {e : Err ER EW} :
      Watch env mem d dest events d1 dest1 →
      Driver.generateImageIfReady env dest1 d1 = (d2, dest2, .err e) →
      Watch env mem d dest (events ++ [.failed (mem d1.bus) d1.effectiveEmissivity d1.reflectedTemperature e]) d2 dest2

/-- The methods that clear the new-data flag. -/
def clearsFlag : Op F → Bool
  | .resetDataAvailable => true
  | .generateImageIfReady _ => true
  | .synchronize _ => true
  | _ => false

/-- Events that surely clear the new-data flag (or leave it clear). -/
def Event.clears : Event F ER EW → Prop
  | .call op outcome => clearsFlag op = true ∧ outcome = .ok ()
  | .image _ _ _ => True
  | .idle => True
  | _ => False

/-- Events that may clear the new-data flag: an image, another such call that succeeded, or a `synchronize` (which clears the
flag first and may fail afterwards). A `generate_image_if_ready` that failed is none. -/
def Event.mayClear : Event F ER EW → Prop
  | .call op outcome => clearsFlag op = true ∧ (outcome = .ok () ∨ ∃ fuel, op = .synchronize fuel)
  | .image _ _ _ => True
  | _ => False

/-- A measurement. -/
def Event.isMeasurement : Event F ER EW → Bool
  | .measured _ => true
  | _ => false

/-- An image in the buffer. -/
def Event.isImage : Event F ER EW → Bool
  | .image _ _ _ => true
  | _ => false

/-- The events that draw into the buffer, with the camera's memory and the settings: images, and a `generate_image_if_ready`
that completed the image and then failed to acknowledge it (its only write). -/
def Event.draws : Event F ER EW → Option ((Word → Word) × F × Option F)
  | .image M em tr => some (M, em, tr)
  | .failed M em tr (.i2cWrite _) => some (M, em, tr)
  | _ => none

/-- What an image covers on an MLX90640: the pixels of the subpage in the status register, in the access pattern of the control
register. -/
def covers640 (M : Word → Word) (i : Nat) : Prop := Mlx90640Memory.measured M (statusSubpage (M 0x8000#16)) i

/-- What an image covers on an MLX90641: all pixels. -/
def covers641 (_ : Word → Word) (i : Nat) : Prop := i < 192

end Mlx.Spec
