import Verif.Props.History
import Verif.Props.Camera
/-
C73: the size of the image, and how the image methods treat a destination of any length.
-/
set_option linter.unusedSectionVars false
set_option autoImplicit false
namespace Mlx.Props
open Mlx Mlx.Spec Mlx.Proofs F32Ops
variable {F σ ER EW : Type} [F32Ops F]

theorem prolongs_same {α : Type} (n : Nat) (dest extra : List F) (d : Driver F σ) (r : Res (Err ER EW) α) :
    Prolongs n dest extra (d, dest, r) (d, dest ++ extra, r) :=
  ⟨rfl, rfl, rfl, extra, rfl, rfl, fun _ => rfl⟩

theorem applyValid_length {α : Type} (f : α → F → F) (dest : List F) (items : List α) (valid : List Bool) :
    (applyValid f dest items valid).length = dest.length := by
  induction dest generalizing items valid with
  | nil => simp [applyValid]
  | cons d dest ih => cases items <;> simp [applyValid, ih]

theorem applyValid_append {α : Type} (f : α → F → F) (dest extra : List F) (items : List α) (valid : List Bool) :
    applyValid f (dest ++ extra) items valid = applyValid f dest items valid ++
      applyValid f extra (items.drop dest.length) (valid.drop dest.length) := by
  induction dest generalizing items valid with
  | nil => simp [applyValid]
  | cons d dest ih =>
    cases items with
    | nil => cases extra <;> simp [applyValid]
    | cons x xs =>
      simp only [List.cons_append, applyValid, ih, List.length_cons, List.drop_succ_cons]
      rw [← List.drop_one, List.drop_drop, Nat.add_comm 1]

theorem applyValid_none {α : Type} (f : α → F → F) (dest : List F) (items : List α) :
    applyValid f dest items [] = dest := by
  induction dest generalizing items with
  | nil => simp [applyValid]
  | cons d dest ih => cases items <;> simp [applyValid, ih]

/-- A conversion whose destination is filled by `applyValid`. -/
theorem applyValid_prolongs {α : Type} (n : Nat) (f : α → F → F) (dest extra : List F) (items : List α) (valid : List Bool)
    (hv : valid.length = n) :
    (applyValid f dest items valid).length = dest.length ∧
      ∃ tail, tail.length = extra.length ∧
        applyValid f (dest ++ extra) items valid = applyValid f dest items valid ++ tail ∧
        (n ≤ dest.length → tail = extra) := by
  refine ⟨applyValid_length .., _, applyValid_length .., applyValid_append .., fun h => ?_⟩
  rw [List.drop_eq_nil_of_le (as := valid) (by omega), applyValid_none]

/-- The relation for conversions. -/
def ConvProlongs {ε : Type} (n : Nat) (dest extra : List F) (short long : Res ε (F × List F)) : Prop :=
  match short with
  | .err e => long = .err e
  | .panic => long = .panic
  | .ok (tA, out) => out.length = dest.length ∧ ∃ tail, tail.length = extra.length ∧ long = .ok (tA, out ++ tail) ∧
      (n ≤ dest.length → tail = extra)

theorem rawIr_prolongs {ε : Type} (n : Nat) (m : Mode) (c : Calib F) (em rc : F) (px : List Byte) (ram : RamData) (s : Subpage)
    (a : AccessPattern) (valid : List Bool) (hv : valid.length = n) (dest extra : List F) :
    ConvProlongs n dest extra (rawPixelsToIrData (ε := ε) m c em rc px ram s a valid dest)
      (rawPixelsToIrData (ε := ε) m c em rc px ram s a valid (dest ++ extra)) := by
  unfold rawPixelsToIrData
  cases CommonIrData.new (ε := ε) m rc em c ram with
  | err e => rfl
  | panic => rfl
  | ok common =>
    obtain ⟨h0, t, h1, h2, h3⟩ := applyValid_prolongs n _ dest extra _ valid hv
    exact ⟨h0, t, h1, by simp only [Res.ok_bind]; rw [h2], h3⟩

theorem temps_prolongs {ε : Type} (n : Nat) (m : Mode) (c : Calib F) (em : F) (tR : Option F) (rc : F) (px : List Byte)
    (ram : RamData) (s : Subpage) (a : AccessPattern) (valid : List Bool) (hv : valid.length = n) (dest extra : List F) :
    ConvProlongs n dest extra (rawPixelsToTemperatures (ε := ε) m c em tR rc px ram s a valid dest)
      (rawPixelsToTemperatures (ε := ε) m c em tR rc px ram s a valid (dest ++ extra)) := by
  unfold rawPixelsToTemperatures
  cases CommonIrData.new (ε := ε) m rc em c ram with
  | err e => rfl
  | panic => rfl
  | ok common =>
    simp only [Res.ok_bind]
    cases idx (ε := ε) c.kSTo c.cam.basicRange with
    | err e => rfl
    | panic => rfl
    | ok k =>
      obtain ⟨h0, t, h1, h2, h3⟩ := applyValid_prolongs n _ dest extra _ valid hv
      exact ⟨h0, t, h1, by simp only [Res.ok_bind]; rw [h2], h3⟩

theorem imageWith_prolongs (n : Nat) (env : Env σ ER EW) (sp : Subpage) (dest extra : List F) (d : Driver F σ)
    (conv conv' : Driver F σ → List Byte → RamData → Res (Err ER EW) (F × List F))
    (h : ∀ px ram, ConvProlongs n dest extra (conv (Driver.readRam env sp d).1 px ram)
      (conv' (Driver.readRam env sp d).1 px ram)) :
    Prolongs n dest extra (imageWith env sp dest d conv) (imageWith env sp (dest ++ extra) d conv') := by
  unfold imageWith
  generalize hr : Driver.readRam env sp d = r at h ⊢
  obtain ⟨d1, r⟩ := r
  cases r with
  | err e => exact prolongs_same ..
  | panic => exact prolongs_same ..
  | ok ram =>
    have h := h d1.pixelBuf ram
    dsimp only at h ⊢
    cases hc : conv d1 d1.pixelBuf ram with
    | err e => rw [hc] at h; dsimp only [ConvProlongs] at h; rw [h]; exact prolongs_same ..
    | panic => rw [hc] at h; dsimp only [ConvProlongs] at h; rw [h]; exact prolongs_same ..
    | ok v =>
      obtain ⟨tA, out⟩ := v
      rw [hc] at h
      obtain ⟨h0, t, h1, h2, h3⟩ := h
      rw [h2]
      exact ⟨rfl, rfl, h0, t, h1, rfl, h3⟩

/-- The size of the image is that of the camera type. -/
theorem supported_size {env : Env σ ER EW} {d : Driver F σ} (h : Supported env d) :
    (d.calib.cam = Mlx90640.cam ∧ d.heightOf = 24 ∧ d.widthOf = 32) ∨
      (d.calib.cam = Mlx90641.cam ∧ d.heightOf = 12 ∧ d.widthOf = 16) := by
  rcases h.cam with hc | hc
  · exact Or.inl ⟨hc, by unfold Driver.heightOf; rw [hc]; rfl, by unfold Driver.widthOf; rw [hc]; rfl⟩
  · exact Or.inr ⟨hc, by unfold Driver.heightOf; rw [hc]; rfl, by unfold Driver.widthOf; rw [hc]; rfl⟩

theorem supported_flags {env : Env σ ER EW} {d : Driver F σ} (h : Supported env d) (sp : Subpage) (a : AccessPattern) :
    (d.calib.cam.pixelsInSubpage sp a).length = d.heightOf * d.widthOf := by
  rcases supported_size h with ⟨hc, h1, h2⟩ | ⟨hc, h1, h2⟩
  · rw [hc, h1, h2, (C12_mlx90640_subpage_partition a).1 sp]
  · rw [hc, h1, h2, (C13_mlx90641_full_subpages sp a).1]

theorem subpage_prolongs {env : Env σ ER EW} {d : Driver F σ} (h : Supported env d) (sp : Subpage) (dest extra : List F) :
    Prolongs (d.heightOf * d.widthOf) dest extra (Driver.generateImageSubpageTo env sp dest d)
      (Driver.generateImageSubpageTo env sp (dest ++ extra) d) := by
  rw [imageSubpage_eq, imageSubpage_eq]
  refine imageWith_prolongs _ env sp dest extra d _ _ fun px ram => ?_
  exact temps_prolongs _ _ _ _ _ _ _ _ _ _ _ (supported_flags h sp _) dest extra

theorem rawSubpage_prolongs {env : Env σ ER EW} {d : Driver F σ} (h : Supported env d) (sp : Subpage)
    (dest extra : List F) :
    Prolongs (d.heightOf * d.widthOf) dest extra (Driver.generateRawImageSubpageTo env sp dest d)
      (Driver.generateRawImageSubpageTo env sp (dest ++ extra) d) := by
  rw [rawImageSubpage_eq, rawImageSubpage_eq]
  refine imageWith_prolongs _ env sp dest extra d _ _ fun px ram => ?_
  exact rawIr_prolongs _ _ _ _ _ _ _ _ _ _ (supported_flags h sp _) dest extra

/-- **C73 (destinations).** For every driver of the crate, every bus, every image method and every destination: the call
never changes the length of the destination; giving it a longer one changes neither the bus traffic, nor the driver, nor
the outcome, nor any of the elements of the shorter one; and with room for `height() * width()` elements, everything after
is left alone. -/
theorem C73_destinations {env : Env σ ER EW} {d : Driver F σ} (h : Supported env d) (dest extra : List F) :
    (∀ sp, Prolongs (d.heightOf * d.widthOf) dest extra (Driver.generateRawImageSubpageTo env sp dest d)
      (Driver.generateRawImageSubpageTo env sp (dest ++ extra) d)) ∧
    (∀ sp, Prolongs (d.heightOf * d.widthOf) dest extra (Driver.generateImageSubpageTo env sp dest d)
      (Driver.generateImageSubpageTo env sp (dest ++ extra) d)) ∧
    Prolongs (d.heightOf * d.widthOf) dest extra (Driver.generateImageTo env dest d)
      (Driver.generateImageTo env (dest ++ extra) d) ∧
    Prolongs (d.heightOf * d.widthOf) dest extra (Driver.generateImageIfReady env dest d)
      (Driver.generateImageIfReady env (dest ++ extra) d) := by
  have hb : ∀ s, Supported env { d with bus := s } := fun s => ⟨h.cam, h.height, h.buffer⟩
  refine ⟨fun sp => rawSubpage_prolongs h sp dest extra, fun sp => subpage_prolongs h sp dest extra, ?_, ?_⟩
  · rw [generateImageTo_eq, generateImageTo_eq]
    cases (regRead env.bus d.bus d.addr 0x8000#16).2 with
    | error e => exact prolongs_same ..
    | ok w => exact subpage_prolongs (hb _) _ dest extra
  · rw [ifReady_eq, ifReady_eq]
    cases (regRead env.bus d.bus d.addr 0x8000#16).2 with
    | error e => exact prolongs_same ..
    | ok w =>
      dsimp only
      split
      · have hp := subpage_prolongs (hb (regRead env.bus d.bus d.addr 0x8000#16).1)
          (if w.getLsbD 0 then .one else .zero) dest extra
        revert hp
        generalize Driver.generateImageSubpageTo env (if w.getLsbD 0 then .one else .zero) dest
          { d with bus := (regRead env.bus d.bus d.addr 0x8000#16).1 } = short
        generalize Driver.generateImageSubpageTo env (if w.getLsbD 0 then .one else .zero) (dest ++ extra)
          { d with bus := (regRead env.bus d.bus d.addr 0x8000#16).1 } = long
        intro hp
        obtain ⟨d1, o1, r1⟩ := short
        obtain ⟨d2, o2, r2⟩ := long
        obtain ⟨h1, h2, h3, t, h4, h5, h6⟩ := hp
        dsimp only at h1 h2 h3 h5 h6
        subst h1 h2
        cases r2 with
        | ok u => exact ⟨rfl, rfl, h3, t, h4, h5, h6⟩
        | err e => exact ⟨rfl, rfl, h3, t, h4, h5, h6⟩
        | panic => exact ⟨rfl, rfl, h3, t, h4, h5, h6⟩
      · exact prolongs_same ..

/-- **C73 (geometry).** For a driver built by the constructor of the MLX90640, after any history of calls, on any bus,
`height()` is 24 and `width()` is 32; for one of the MLX90641, 12 and 16. -/
theorem C73_geometry (m : Mode) (b : Bus σ ER EW) (s : σ) (addr : Byte) (history : List (Op F)) :
    (∀ s' d, Driver.new640 (F := F) m b s addr = (s', .ok d) →
      (runOps ⟨m, 24, b⟩ history d).heightOf = 24 ∧ (runOps ⟨m, 24, b⟩ history d).widthOf = 32) ∧
    (∀ s' d, Driver.new641 (F := F) m b s addr = (s', .ok d) →
      (runOps ⟨m, 12, b⟩ history d).heightOf = 12 ∧ (runOps ⟨m, 12, b⟩ history d).widthOf = 16) := by
  constructor
  · intro s' d hd
    have h := (runOps_supported ((C39_constructed_drivers_supported m b s addr).1 s' d hd).1 history).1
    rcases supported_size h with ⟨_, h1, h2⟩ | ⟨hc, _, _⟩
    · exact ⟨h1, h2⟩
    · have := h.height
      rw [hc] at this
      cases this
  · intro s' d hd
    have h := (runOps_supported ((C39_constructed_drivers_supported m b s addr).2 s' d hd).1 history).1
    rcases supported_size h with ⟨hc, _, _⟩ | ⟨_, h1, h2⟩
    · have := h.height
      rw [hc] at this
      cases this
    · exact ⟨h1, h2⟩

/-- A destination three elements too long: the image is drawn, the last three elements stay. -/
example : (Driver.generateImageIfReady (recordedEnv (σ := SimpleCamera) ⟨.checked, 24, simpleBus⟩)
      (List.replicate 768 (0 : Int) ++ [7, 8, 9]) (toyDriver Mlx90640.cam 768 (toyCamera 9, []))).2.2 = .ok true ∧
    ((Driver.generateImageIfReady (recordedEnv (σ := SimpleCamera) ⟨.checked, 24, simpleBus⟩)
      (List.replicate 768 (0 : Int) ++ [7, 8, 9]) (toyDriver Mlx90640.cam 768 (toyCamera 9, []))).2.1).drop 768 =
      [7, 8, 9] := by
  constructor <;> decide +kernel

end Mlx.Props
