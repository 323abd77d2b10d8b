import Verif.Props.Eeprom641
import Verif.Spec.Thermometer
/-
C66, first part: an accepted dump decodes to the documented table of parameters.
-/
set_option autoImplicit false
set_option linter.unusedSectionVars false
namespace Mlx.Props
open Mlx Mlx.Spec Mlx.Proofs F32Ops

attribute [ext] Calib

theorem list_of_get {α : Type} {n : Nat} {l : List α} {f : Nat → α} (hl : l.length = n) (h : ∀ i < n, l[i]? = some (f i)) :
    l = perPixel n f := by
  unfold perPixel
  refine List.ext_getElem? fun i => ?_
  rw [List.getElem?_map]
  by_cases hi : i < n
  · rw [h i hi, List.getElem?_range hi]; rfl
  · rw [List.getElem?_eq_none (by omega), List.getElem?_eq_none (by rw [List.length_range]; omega)]; rfl

/-- **C66 (MLX90640 table).** For a dump whose documented sums fit 16 bits, the calibration accepted is, in every
parameter it exposes, the documented table. -/
theorem C66_table_640 (m : Mode) (data : List Byte) (c : Mlx90640.Calibration ℝ) (h : Mlx90640.fromData m data = .ok c)
    (hr : Ee640.Regular (eepromWord data)) : c.toCalib = Ee640.calibration (eepromWord data) := by
  obtain ⟨h1, h2, h3, h4, h5, h6, h7, h8, h9, h10, h11, h12, h13, h14, h15, h16, h17, h18, h19, h20, h21⟩ :=
    C25_scalars m data c h
  obtain ⟨hn, hk, hf, ho⟩ := C28_complete_640 m data c h
  obtain ⟨_, hc1, hc2⟩ := C29_range_correction_640 m data c h
  obtain ⟨hp1, hp2, hp3⟩ := C27_flags m data c h
  obtain ⟨hi1, hi2, hi3, hi4⟩ := C31_interleave_compensation m data c h
  have hcam : c.toCalib.cam = Mlx90640.cam := by obtain ⟨_, _, rfl⟩ := accepted640 h; rfl
  have hlen := (accepted640 h).1
  have hoff := fun s i hi => ((C26_offsets (F := ℝ) data hlen).2.2.2 m c h s i hi).2
  have hpc := fun s i hi => C30_pixel_coefficients m data c h s i hi
  unfold offset640 at hoff
  clear h
  dsimp only at h1 h2 h3 h4 h5 h6 h7 h8 h9 h10 h11 h12 h13 h14 h15 h16 h17 h18 h19 h20 h21 hi1 hi2 hi3 hi4 hpc
  generalize c.toCalib = k at *
  generalize eepromWord data = E at *
  refine Calib.ext hcam h5 h6 h13 h7 h3 h4 h2 h8 h1 h9 h14 h15 ?_ h12 ?_ ?_ ?_ ?_ ?_ ?_ ?_ ?_ ?_ ?_ ?_ ?_ ?_
  · refine (list_of_get hc1 fun i hi => hc2 i hi).trans ?_
    rw [hcam, h14, h15]
    unfold perPixel
    rfl
  · funext s
    exact list_of_get (f := Ee640.offset E) (hk.offsetRef s) fun i hi => hoff s i hi (hr i hi).1
  · funext s; cases s
    · refine h16.trans ?_; simp only [Ee640.calibration]
    · refine h17.trans ?_; simp only [Ee640.calibration]
  · funext s
    refine list_of_get (hk.alpha s) fun i hi => ?_
    obtain ⟨_, ha1, ha2⟩ := hpc s i hi
    unfold Ee640.alpha
    cases hx : Ee640.isFailed E i
    · exact (ha1 hx).2 (hr i hi).2.1 ((hr i hi).2.2 hx).2
    · exact (ha2 hx).2 (hr i hi).2.1
  · funext s; cases s
    · exact h18
    · rw [h19, h18]; rfl
  · funext s
    exact list_of_get (f := Ee640.kV E) (hk.kV s) fun i hi => (hpc s i hi).1
  · funext s; exact h20 s
  · funext s
    refine list_of_get (hk.kTa s) fun i hi => ?_
    obtain ⟨_, ha1, ha2⟩ := hpc s i hi
    unfold Ee640.kTa
    cases hx : Ee640.isFailed E i
    · exact (ha1 hx).1 ((hr i hi).2.2 hx).1
    · exact (ha2 hx).1
  · funext s; exact h21 s
  · have hg : ∀ (x : Int) (t : Option ℝ), t.getD 0 = (x : ℝ) / 2 ^ 5 → (t = none ↔ x = 0) →
        t = if x = 0 then none else some ((x : ℝ) / 2 ^ 5) := by
      intro x t g1 g2
      cases t with
      | none => rw [if_pos (g2.1 rfl)]
      | some y =>
        rw [if_neg fun h0 => nomatch g2.2 h0]
        exact congrArg some g1
    refine (hg _ _ h10 h11).trans ?_; simp only [Ee640.calibration]
  · funext a; cases a
    · exact list_of_get (hk.apComp .chess) fun i hi => (hi1 i hi).1
    · exact list_of_get (hk.apComp .interleave) fun i hi => (hi1 i hi).2
  · funext s a
    cases a <;> cases s
    · exact hi2 _
    · exact hi2 _
    · exact hi3
    · exact hi4
  · exact list_of_get hp1 fun i hi => (hp3 i hi).1
  · exact list_of_get hp2 fun i hi => (hp3 i hi).2.1

/-- **C66 (MLX90641 table).** For a dump whose words are correctable and hold regular values, the calibration accepted
is, in every parameter it exposes, the documented table (with the offset average of C36). -/
theorem C66_table_641 (m : Mode) (data : List Byte) (c : Mlx90641.Calibration ℝ) (h : Mlx90641.fromData m data = .ok c)
    (D : Nat → BitVec 11) (hD : Ee641.Holds data D (Ee641.readAddresses 192)) (hr : Ee641.Regular D) :
    c.toCalib = Ee641.calibration D := by
  obtain ⟨h1, h2, h3, h4, h5, h6, h7, h8, h9, h10, h11, h12, h13, h14, h15, h16, h17, h18⟩ :=
    (C35_scalars_641 m data c h).2 D hD
  obtain ⟨hn, hk, hf, ho, _⟩ := C28_complete_641 m data c h
  obtain ⟨_, hc1, hc2⟩ := C29_range_correction_641 m data c h
  have hcam : c.toCalib.cam = Mlx90641.cam := by obtain ⟨_, rfl⟩ := decode_of_accepted h hD; rfl
  have hap : ∀ a, c.toCalib.apComp a = perPixel 192 fun _ => none := by
    intro a
    obtain ⟨_, rfl⟩ := decode_of_accepted h hD
    show List.replicate Mlx90641.numPixels none = _
    unfold perPixel
    rw [List.map_const', List.length_range]
    rfl
  have hapc : ∀ s a, c.toCalib.apCompCp s a = none := by
    intro s a
    obtain ⟨_, rfl⟩ := decode_of_accepted h hD
    rfl
  have hlen := (accepted641 h).1
  have hpx := fun s i hi => (C37_pixels_641 data hlen D hD).2.2.2 m c h s i hi
  have hreg : ∀ a ∈ [0x2412, 0x2425, 0x2429, 0x2430], (D a).toNat < 32 := hr.1
  have hw : ∀ a, (Ee641.widen D a).toNat = (D a).toNat := by
    intro a
    unfold Ee641.widen
    rw [BitVec.toNat_setWidth]
    have := (D a).isLt
    omega
  clear h
  dsimp only at h1 h2 h3 h4 h5 h6 h7 h8 h9 h10 h11 h12 h13 h14 h15 h16 h17 h18 hpx
  generalize c.toCalib = k at *
  refine Calib.ext hcam h5 h4 h15 h6 h9 h8 (h7 (hreg _ (by simp))) h10 (h3 (hreg _ (by simp))) h1 h17 h18 ?_ h2 ?_ ?_ ?_ ?_ ?_ ?_
    ?_ ?_ h16 ?_ ?_ ?_ ?_
  · refine (list_of_get hc1 fun i hi => hc2 i hi).trans ?_
    rw [hcam, h17, h18]
    unfold perPixel
    rfl
  · funext s
    refine list_of_get (hk.offsetRef s) fun i hi => ?_
    obtain ⟨_, _, p1, p2⟩ := hpx s i hi
    unfold Ee641.offset
    cases hx : Ee641.isFailed (Ee641.widen D) i
    · rw [(p2 hx).1]
      refine congrArg some ?_
      have := hr.2 i hi hx s
      rw [wrap16_fits this]
      rfl
    · exact (p1 hx).1
  · funext s; refine (h12 (hreg _ (by simp)) s).trans ?_; simp only [Ee641.calibration]
  · funext s
    refine list_of_get (hk.alpha s) fun i hi => ?_
    obtain ⟨_, _, p1, p2⟩ := hpx s i hi
    unfold Ee641.alpha
    cases hx : Ee641.isFailed (Ee641.widen D) i
    · rw [(p2 hx).2.2.1, hw]; rfl
    · exact (p1 hx).2.1
  · funext s; exact h11 s
  · funext s
    refine list_of_get (hk.kV s) fun i hi => ?_
    obtain ⟨_, _, p1, p2⟩ := hpx s i hi
    unfold Ee641.kV
    cases hx : Ee641.isFailed (Ee641.widen D) i
    · exact (p2 hx).2.2.2.2
    · exact (p1 hx).2.2.2
  · funext s; exact h14 s
  · funext s
    refine list_of_get (hk.kTa s) fun i hi => ?_
    obtain ⟨_, _, p1, p2⟩ := hpx s i hi
    unfold Ee641.kTa
    cases hx : Ee641.isFailed (Ee641.widen D) i
    · exact (p2 hx).2.2.2.1
    · exact (p1 hx).2.2.1
  · funext s; exact h13 s
  · funext a; exact hap a
  · funext s a; exact hapc s a
  · exact list_of_get hf fun i hi => (hpx .zero i hi).1
  · exact list_of_get ho fun i hi => (hpx .zero i hi).2.1

end Mlx.Props
