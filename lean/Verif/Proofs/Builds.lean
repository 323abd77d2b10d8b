import Verif.Model.Driver
import Verif.Spec.Builds
/-
A checked build either panics or agrees with a release build: congruence lemmas and the two decoders.
-/
set_option linter.unusedSectionVars false
set_option autoImplicit false
namespace Mlx.Proofs
open Mlx Mlx.Spec F32Ops
variable {ε α β : Type}

theorem _root_.Mlx.Spec.PanicsOr.refl (p : Res ε α) : PanicsOr p p := Or.inr rfl

theorem _root_.Mlx.Spec.PanicsOr.bind {p q : Res ε α} {f g : α → Res ε β} (h : PanicsOr p q)
    (hf : ∀ a, PanicsOr (f a) (g a)) : PanicsOr (p >>= f) (q >>= g) := by
  rcases h with rfl | rfl
  · exact Or.inl rfl
  · cases p with
    | ok a => exact hf a
    | err e => exact Or.inr rfl
    | panic => exact Or.inl rfl

/-- The same for parsers. -/
def ParserPanicsOr (p q : Parser ε α) : Prop := ∀ s, PanicsOr (p s) (q s)

theorem ParserPanicsOr.refl (p : Parser ε α) : ParserPanicsOr p p := fun _ => .refl _

theorem ParserPanicsOr.bind {p q : Parser ε α} {f g : α → Parser ε β} (h : ParserPanicsOr p q)
    (hf : ∀ a, ParserPanicsOr (f a) (g a)) : ParserPanicsOr (p >>= f) (q >>= g) := by
  intro s
  rw [Parser.bind_apply, Parser.bind_apply]
  exact (h s).bind fun r => hf r.1 r.2

theorem ParserPanicsOr.lift {p q : Res ε α} (h : PanicsOr p q) :
    ParserPanicsOr (Parser.lift p) (Parser.lift q) := by
  rcases h with rfl | rfl
  · exact fun _ => Or.inl rfl
  · exact .refl _

theorem arith16_builds (x : Int) : PanicsOr (arith16 (ε := ε) .checked x) (arith16 .wrapping x) := by
  unfold arith16
  split
  · exact .refl _
  · exact Or.inl rfl

theorem i16FromBits_builds (bytes : List Byte) (n : Nat) :
    PanicsOr (i16FromBits (ε := ε) .checked bytes n) (i16FromBits .wrapping bytes n) := by
  unfold i16FromBits
  refine .bind (.refl _) fun a => ?_
  split
  · exact .refl _
  · exact Or.inl rfl

theorem mapIdxRes_builds {f g : Nat → α → Res ε β} (h : ∀ i x, PanicsOr (f i x) (g i x)) (xs : List α) (k : Nat) :
    PanicsOr (mapIdxRes f k xs) (mapIdxRes g k xs) := by
  induction xs generalizing k with
  | nil => exact .refl _
  | cons x xs ih =>
    unfold mapIdxRes
    exact .bind (h _ _) fun _ => .bind (ih _) fun _ => .refl _

theorem mapM_builds {f g : α → Res ε β} (h : ∀ x, PanicsOr (f x) (g x)) (xs : List α) :
    PanicsOr (xs.mapM f) (xs.mapM g) := by
  induction xs with
  | nil => exact .refl _
  | cons x xs ih =>
    rw [List.mapM_cons, List.mapM_cons]
    exact .bind (h _) fun _ => .bind ih fun _ => .refl _

variable {F : Type} [F32Ops F]

theorem alphaCorrN_builds (basic : Nat) (ct : List Int) (ks : List F) (n : Nat) :
    PanicsOr (alphaCorrN (ε := ε) .checked basic ct ks n) (alphaCorrN .wrapping basic ct ks n) := by
  induction hk : (n - basic) + (basic - n) generalizing n with
  | zero =>
    have : n = basic := by omega
    unfold alphaCorrN
    rw [if_pos this, if_pos this]
    exact .refl _
  | succ k ih =>
    unfold alphaCorrN
    split
    · exact .refl _
    · split
      · exact .bind (.refl _) fun _ => .bind (.refl _) fun _ => .bind (.refl _) fun _ =>
          .bind (arith16_builds _) fun _ => .bind (ih _ (by omega)) fun _ => .refl _
      · exact .bind (.refl _) fun _ => .bind (.refl _) fun _ => .bind (.refl _) fun _ =>
          .bind (arith16_builds _) fun _ => .bind (ih _ (by omega)) fun _ => .refl _

theorem alphaCorrection_builds (n basic : Nat) (ct : List Int) (ks : List F) :
    PanicsOr (alphaCorrectionCoefficients (ε := ε) .checked n basic ct ks)
      (alphaCorrectionCoefficients .wrapping n basic ct ks) :=
  mapM_builds (fun _ => alphaCorrN_builds ..) _

/-! ### MLX90640 -/

theorem rowPasses_builds (sc fuel k : Nat) (px : List Int) :
    ParserPanicsOr (Mlx90640.rowPasses (ε := ε) .checked sc fuel k px) (Mlx90640.rowPasses .wrapping sc fuel k px) := by
  induction fuel generalizing k px with
  | zero => exact .refl _
  | succ n ih =>
    refine .bind (.refl _) fun c => .bind (.lift (mapIdxRes_builds (fun i x => ?_) _ _)) fun _ => ih _ _
    split
    · exact arith16_builds _
    · exact .refl _

theorem columnPasses_builds (sc fuel k : Nat) (px : List Int) :
    ParserPanicsOr (Mlx90640.columnPasses (ε := ε) .checked sc fuel k px)
      (Mlx90640.columnPasses .wrapping sc fuel k px) := by
  induction fuel generalizing k px with
  | zero => exact .refl _
  | succ n ih =>
    refine .bind (.refl _) fun c => .bind (.lift (mapIdxRes_builds (fun i x => ?_) _ _)) fun _ => ih _ _
    split
    · exact arith16_builds _
    · exact .refl _

theorem bulk_builds :
    ParserPanicsOr (Mlx90640.bulkPixelCalibration (ε := ε) .checked) (Mlx90640.bulkPixelCalibration .wrapping) :=
  .bind (.refl _) fun _ => .bind (.refl _) fun _ => .bind (rowPasses_builds _ _ _ _) fun _ =>
    .bind (columnPasses_builds _ _ _ _) fun _ => .refl _

theorem accessPattern_builds :
    ParserPanicsOr (Mlx90640.accessPatternCorrections (F := F) (ε := ε) .checked)
      (Mlx90640.accessPatternCorrections .wrapping) :=
  .bind (.refl _) fun _ => .bind (.lift (i16FromBits_builds ..)) fun _ => .bind (.lift (i16FromBits_builds ..)) fun _ =>
    .bind (.lift (i16FromBits_builds ..)) fun _ => .refl _

theorem pixelStep640_builds (a b c : Nat) (x y : F) (o : Int) (al : F) (k : Int) (h l : Byte) :
    PanicsOr (Mlx90640.pixelStep (ε := ε) .checked a b c x y o al k h l)
      (Mlx90640.pixelStep .wrapping a b c x y o al k h l) := by
  unfold Mlx90640.pixelStep
  split
  · exact .refl _
  · exact .bind (arith16_builds _) fun _ => .bind (arith16_builds _) fun _ => .refl _

theorem pixelLoop640_builds (a b c : Nat) (x y : F) (items : List ((Int × F) × Int)) :
    ParserPanicsOr (Mlx90640.pixelLoop (ε := ε) .checked a b c x y items)
      (Mlx90640.pixelLoop .wrapping a b c x y items) := by
  induction items with
  | nil => exact .refl _
  | cons i items ih =>
    exact .bind (.refl _) fun _ => .bind (.refl _) fun _ => .bind (.lift (pixelStep640_builds ..)) fun _ =>
      .bind ih fun _ => .refl _

theorem parse640_builds :
    ParserPanicsOr (Mlx90640.parse (F := F) .checked) (Mlx90640.parse .wrapping) := by
  unfold Mlx90640.parse
  refine .bind (.refl _) fun _ => .bind bulk_builds fun r1 => .bind bulk_builds fun r2 => .bind (.refl _) fun _ =>
    .bind (.refl _) fun _ => .bind (.refl _) fun r3 => .bind (.lift (i16FromBits_builds ..)) fun _ =>
    .bind (.refl _) fun _ => .bind (.refl _) fun _ => .bind (.refl _) fun _ => .bind accessPattern_builds fun r4 =>
    .bind (.refl _) fun _ => .bind (.refl _) fun _ => .bind (.refl _) fun _ => .bind (.refl _) fun r5 =>
    .bind (.refl _) fun _ => .bind (.refl _) fun r6 => .bind (.lift (i16FromBits_builds ..)) fun _ =>
    .bind (.refl _) fun _ => .bind (.refl _) fun _ => .bind (.refl _) fun _ => .bind (.refl _) fun _ =>
    .bind (.refl _) fun r7 => .bind (.lift (alphaCorrection_builds ..)) fun _ =>
    .bind (pixelLoop640_builds _ _ _ _ _ _) fun _ => .refl _

theorem fromData640_builds (data : List Byte) :
    PanicsOr (Mlx90640.fromData (F := F) .checked data) (Mlx90640.fromData .wrapping data) := by
  unfold Mlx90640.fromData
  split
  · exact .refl _
  · rcases parse640_builds (F := F) data with h | h
    · rw [h]; exact Or.inl rfl
    · rw [h]; exact .refl _

/-! ### MLX90641 -/

theorem hammingI16_builds :
    ParserPanicsOr (Mlx90641.getHammingI16 .checked) (Mlx90641.getHammingI16 .wrapping) :=
  .bind (.refl _) fun _ => .lift (i16FromBits_builds ..)

theorem cpConstant_builds :
    ParserPanicsOr (Mlx90641.getScaledCpConstant (F := F) .checked) (Mlx90641.getScaledCpConstant .wrapping) :=
  .bind (.refl _) fun _ => .bind (.lift (i16FromBits_builds ..)) fun _ => .refl _

theorem resolutionTgc_builds :
    ParserPanicsOr (Mlx90641.getResolutionWithTgc (F := F) .checked) (Mlx90641.getResolutionWithTgc .wrapping) :=
  .bind (.refl _) fun _ => .bind (.refl _) fun _ => .bind (.lift (i16FromBits_builds ..)) fun _ => .refl _

theorem temperatureRange641_builds :
    ParserPanicsOr (Mlx90641.temperatureRangeData (F := F) .checked) (Mlx90641.temperatureRangeData .wrapping) :=
  .bind (.refl _) fun _ => .bind hammingI16_builds fun _ => .bind hammingI16_builds fun _ =>
    .bind hammingI16_builds fun _ => .bind hammingI16_builds fun _ => .bind hammingI16_builds fun _ =>
    .bind (.refl _) fun _ => .bind hammingI16_builds fun _ => .bind (.refl _) fun _ => .bind hammingI16_builds fun _ =>
    .bind (.refl _) fun _ => .bind hammingI16_builds fun _ => .refl _

theorem decodePixel_builds (w0 w1 wa wc : Word) :
    PanicsOr (Mlx90641.decodePixel .checked w0 w1 wa wc) (Mlx90641.decodePixel .wrapping w0 w1 wa wc) :=
  .bind (.refl _) fun _ => .bind (i16FromBits_builds ..) fun _ => .bind (.refl _) fun _ =>
    .bind (i16FromBits_builds ..) fun _ => .bind (.refl _) fun _ => .bind (.refl _) fun _ =>
    .bind (i16FromBits_builds ..) fun _ => .bind (i16FromBits_builds ..) fun _ => .refl _

theorem pixelStep641_builds (c : Mlx90641.PixelConsts F) (px : (((Word × Word) × Word) × Word) × F) :
    PanicsOr (Mlx90641.pixelStep .checked c px) (Mlx90641.pixelStep .wrapping c px) := by
  unfold Mlx90641.pixelStep
  refine .bind (decodePixel_builds ..) fun r => ?_
  obtain ⟨o0, o1, a, kTa, kV⟩ := r
  simp only
  split
  · exact .refl _
  · exact .bind (arith16_builds _) fun _ => .bind (arith16_builds _) fun _ => .bind (arith16_builds _) fun _ =>
      .bind (arith16_builds _) fun _ => .refl _

theorem pixelLoop641_builds (c : Mlx90641.PixelConsts F) (px : List ((((Word × Word) × Word) × Word) × F)) :
    PanicsOr (Mlx90641.pixelLoop .checked c px) (Mlx90641.pixelLoop .wrapping c px) := by
  induction px with
  | nil => exact .refl _
  | cons x xs ih => exact .bind (pixelStep641_builds ..) fun _ => .bind ih fun _ => .refl _

theorem pixelConsts_builds :
    ParserPanicsOr (Mlx90641.pixelConsts (F := F) .checked) (Mlx90641.pixelConsts .wrapping) := by
  unfold Mlx90641.pixelConsts
  exact .bind (.refl _) fun _ => .bind (.refl _) fun _ => .bind (.lift (arith16_builds _)) fun _ =>
    .bind (.refl _) fun _ => .bind (.lift (i16FromBits_builds ..)) fun _ => .bind (.refl _) fun _ =>
    .bind hammingI16_builds fun _ => .bind (.refl _) fun _ => .bind hammingI16_builds fun _ =>
    .bind (.refl _) fun _ => .refl _

theorem runParser_builds {p q : Parser ε α} (h : ParserPanicsOr p q) (s : List Byte) :
    PanicsOr (Mlx90641.runParser p s) (Mlx90641.runParser q s) := by
  unfold Mlx90641.runParser
  rcases h s with h | h
  · rw [h]; exact Or.inl rfl
  · rw [h]; exact .refl _

theorem perPixel_builds (data : List Byte) :
    PanicsOr (Mlx90641.perPixel (F := F) .checked data) (Mlx90641.perPixel .wrapping data) := by
  unfold Mlx90641.perPixel
  refine .bind (runParser_builds pixelConsts_builds _) fun _ => .bind (.refl _) fun _ => .bind (.refl _) fun _ =>
    .bind (.refl _) fun _ => .bind (.refl _) fun _ => .bind (pixelLoop641_builds ..) fun _ => .refl _

theorem parseScalars_builds :
    ParserPanicsOr (Mlx90641.parseScalars (F := F) .checked) (Mlx90641.parseScalars .wrapping) := by
  unfold Mlx90641.parseScalars
  exact .bind (.refl _) fun _ => .bind hammingI16_builds fun _ => .bind hammingI16_builds fun _ =>
    .bind (.refl _) fun _ => .bind hammingI16_builds fun _ => .bind hammingI16_builds fun _ =>
    .bind (.refl _) fun _ => .bind hammingI16_builds fun _ => .bind hammingI16_builds fun _ =>
    .bind (.refl _) fun _ => .bind (.refl _) fun _ => .bind (.refl _) fun _ => .bind (.refl _) fun _ =>
    .bind cpConstant_builds fun _ => .bind cpConstant_builds fun _ => .bind resolutionTgc_builds fun _ =>
    .bind temperatureRange641_builds fun _ => .bind (.lift (alphaCorrection_builds ..)) fun _ => .refl _

theorem fromData641_builds (data : List Byte) :
    PanicsOr (Mlx90641.fromData (F := F) .checked data) (Mlx90641.fromData .wrapping data) := by
  unfold Mlx90641.fromData
  exact .bind (runParser_builds parseScalars_builds _) fun _ => .bind (perPixel_builds _) fun _ => .refl _

/-! ### Conversions -/

theorem common_builds (c : Calib F) (em rc : F) (ram : RamData) :
    PanicsOr (CommonIrData.new (ε := ε) .checked rc em c ram) (CommonIrData.new .wrapping rc em c ram) := by
  unfold CommonIrData.new deltaV
  exact .bind (.bind (arith16_builds _) fun _ => .refl _) fun _ => .refl _

theorem irData_builds (c : Calib F) (em rc : F) (px : List Byte) (ram : RamData) (s : Subpage) (a : AccessPattern)
    (valid : List Bool) (dest : List F) :
    PanicsOr (rawPixelsToIrData (ε := ε) .checked c em rc px ram s a valid dest)
      (rawPixelsToIrData .wrapping c em rc px ram s a valid dest) :=
  .bind (common_builds ..) fun _ => .refl _

theorem temperatures_builds (c : Calib F) (em : F) (tR : Option F) (rc : F) (px : List Byte) (ram : RamData)
    (s : Subpage) (a : AccessPattern) (valid : List Bool) (dest : List F) :
    PanicsOr (rawPixelsToTemperatures (ε := ε) .checked c em tR rc px ram s a valid dest)
      (rawPixelsToTemperatures .wrapping c em tR rc px ram s a valid dest) :=
  .bind (common_builds ..) fun _ => .refl _

end Mlx.Proofs
