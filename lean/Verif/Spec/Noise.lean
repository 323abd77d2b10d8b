import Verif.Spec.Heard
import Verif.Spec.Usual
/-
Images of which nothing is known but what was heard; cameras whose frames differ in pixels only.
-/
set_option autoImplicit false
namespace Mlx.Spec
open Mlx
variable {F : Type} [F32Ops F]

/-- A thermal image was made: some driver was constructed by `construct` on some bus and some calls were made, after which it had the
emissivity `em` and the reflected temperature `refl`; then one of the three methods turned `dest` into `dest'`, an image of subpage
`sp`, and `V` is as heard. -/
def Imaged (construct : {σ ER EW : Type} → Mode → Bus σ ER EW → σ → Byte → σ × Res (Err ER EW) (Driver F σ)) (height : Nat)
    (V : Word → Word) (em : F) (refl : Option F) (sp : Subpage) (dest dest' : List F) : Prop :=
  ∃ (σ ER EW : Type) (m : Mode) (b : Bus σ ER EW) (s s' : σ × List (Txn ER EW)) (addr : Byte) (d d1 d' : Driver F (σ × List (Txn ER EW)))
      (ops : List (Op F)),
    construct m (recorded b) s addr = (s', .ok d) ∧ d1 = runOps (recordedEnv ⟨m, height, b⟩) ops d ∧
    d1.effectiveEmissivity = em ∧ d1.reflectedTemperature = refl ∧ AsHeard addr d'.bus.2 V ∧
    (Driver.generateImageSubpageTo (recordedEnv ⟨m, height, b⟩) sp dest d1 = (d', dest', .ok ()) ∨
      sp = statusSubpage (V 0x8000#16) ∧ Driver.generateImageTo (recordedEnv ⟨m, height, b⟩) dest d1 = (d', dest', .ok ()) ∨
      sp = statusSubpage (V 0x8000#16) ∧ Driver.generateImageIfReady (recordedEnv ⟨m, height, b⟩) dest d1 = (d', dest', .ok true))

/-- The memories agree outside the words of pixels, which end before `last`. -/
def DifferInPixels (last : Nat) (V W : Word → Word) : Prop := ∀ a : Word, ¬ (0x0400 ≤ a.toNat ∧ a.toNat < last) → W a = V a

end Mlx.Spec
