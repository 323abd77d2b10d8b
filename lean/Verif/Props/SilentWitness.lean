import Verif.Props.Silent
import Verif.Props.Witness641
/-
`C112_camera_641` says something about a concrete camera: pixel 3 of the one of `memory641` is broken.
-/
set_option linter.unusedSectionVars false
set_option autoImplicit false
namespace Mlx.Props
open Mlx Mlx.Spec Mlx.Proofs F32Ops

theorem pixel641_broken : Mlx90641Memory.broken values641 3 ∧ Mlx90641Memory.withoutGradient values641 := by
  constructor
  · unfold Mlx90641Memory.broken; decide +kernel
  · unfold Mlx90641Memory.withoutGradient; decide +kernel

/-- Whether a frame can be evaluated does not depend on the pixel. -/
theorem evaluable641 : (Mlx90641Memory.pixel memory641 values641 (243 / 256) none .zero 3).Evaluable := by
  have h := (usual_computable usual641.1 (δ := 0) le_rfl (by positivity)).1.1
  exact ⟨h.readable, h.emissivity⟩

/-- Everything that `C112_camera_641` assumes holds for pixel 3 of this camera, which shows no temperature. -/
example (dest : List Rounded) (hdest : dest.length = 192) :
    ∃ s' d d' dest' v, Driver.new641 .wrapping (cameraBus 0x33#8) memory641 0x33#8 = (s', .ok d) ∧
      Driver.generateImageSubpageTo ⟨.wrapping, 12, cameraBus 0x33#8⟩ .zero dest d = (d', dest', .ok ()) ∧
      dest'[3]? = some v ∧ NotFinite v := by
  obtain ⟨s', d, d', dest', hd, hg, hb, -⟩ := imaged_641_plain (F := Rounded) memory641 memory641_holds .zero dest
  obtain ⟨v, v1, v2⟩ := (C112_camera_641 .wrapping _ memory641 s' _ (cameraBus_static _) d hd values641 example641_regular
    memory641_holds moderate641 [] d .start (fun c hc => nomatch hc) (243 / 256) none dest dest' d' 3
    (by omega) (by omega) pixel641_broken.1 pixel641_broken.2).1 .zero hg (by
      show (Mlx90641Memory.pixel (id d.bus) values641 (243 / 256) none .zero 3).Evaluable
      rw [hb]; exact evaluable641)
  exact ⟨s', d, d', dest', v, hd, hg, v1, v2⟩

end Mlx.Props
