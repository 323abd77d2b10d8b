import Verif.Props.Failures
import Verif.Proofs.Builds
/-
C62: a build with overflow checks panics or does what the build without them does.
-/
set_option autoImplicit false
set_option linter.unusedSectionVars false
namespace Mlx.Props
open Mlx Mlx.Spec Mlx.Proofs

variable {F σ ER EW ε : Type} [F32Ops F]

/-- **C62 (decoding and conversion).** For every input, decoding an EEPROM dump and converting a frame with overflow
checks either panics or gives exactly the result obtained without them. -/
theorem C62_decoding_and_conversion (data : List Byte) (c : Calib F) (em rc : F) (tR : Option F) (px : List Byte)
    (ram : RamData) (s : Subpage) (a : AccessPattern) (valid : List Bool) (dest : List F) :
    PanicsOr (Mlx90640.fromData (F := F) .checked data) (Mlx90640.fromData .wrapping data) ∧
    PanicsOr (Mlx90641.fromData (F := F) .checked data) (Mlx90641.fromData .wrapping data) ∧
    PanicsOr (rawPixelsToIrData (ε := ε) .checked c em rc px ram s a valid dest)
      (rawPixelsToIrData .wrapping c em rc px ram s a valid dest) ∧
    PanicsOr (rawPixelsToTemperatures (ε := ε) .checked c em tR rc px ram s a valid dest)
      (rawPixelsToTemperatures .wrapping c em tR rc px ram s a valid dest) :=
  ⟨fromData640_builds data, fromData641_builds data, irData_builds .., temperatures_builds ..⟩

theorem new_builds {C : Type} {f g : List Byte → Res LibErr C} (h : ∀ bytes, PanicsOr (f bytes) (g bytes))
    (toCalib : C → Calib F) (b : Bus σ ER EW) (n : Nat) (s : σ) (addr : Byte) :
    (Driver.new f toCalib b n s addr).2 = .panic ∨ Driver.new f toCalib b n s addr = Driver.new g toCalib b n s addr := by
  unfold Driver.new calibFromI2c
  generalize b.read s addr (toBe 0x2400#16) (List.replicate ((0x273F - 0x2400 + 1) * 2) 0#8) = q
  obtain ⟨s1, bytes | e | _⟩ := q
  · rcases h bytes with hp | hp
    · left; simp only [hp, Res.mapErr]
    · right; simp only [hp]
  · right; rfl
  · right; rfl

/-- **C62 (construction).** On every bus, constructing a driver with overflow checks either panics or gives the same
driver (or error), with the same effect on the bus. -/
theorem C62_construction (b : Bus σ ER EW) (s : σ) (addr : Byte) :
    ((Driver.new640 (F := F) .checked b s addr).2 = .panic ∨
      Driver.new640 (F := F) .checked b s addr = Driver.new640 .wrapping b s addr) ∧
    ((Driver.new641 (F := F) .checked b s addr).2 = .panic ∨
      Driver.new641 (F := F) .checked b s addr = Driver.new641 .wrapping b s addr) :=
  ⟨new_builds (fun bytes => fromData640_builds bytes) .., new_builds (fun bytes => fromData641_builds bytes) ..⟩

theorem ranges_builds (sp : Subpage) (a : AccessPattern) :
    Mlx90640.cam.collectRanges .checked sp a 24 = Mlx90640.cam.collectRanges .wrapping sp a 24 ∧
    Mlx90641.cam.collectRanges .checked sp a 12 = Mlx90641.cam.collectRanges .wrapping sp a 12 := by
  cases sp <;> cases a <;> exact ⟨rfl, rfl⟩

theorem readRam_builds (env : Env σ ER EW) (d : Driver F σ) (h : Supported env d) (sp : Subpage) :
    Driver.readRam (inBuild env .checked) sp d = Driver.readRam (inBuild env .wrapping) sp d := by
  unfold Driver.readRam Mlx.readRam
  have : d.calib.cam.collectRanges .checked sp d.accessPattern env.height =
      d.calib.cam.collectRanges .wrapping sp d.accessPattern env.height := by
    rw [h.height]
    rcases h.cam with hc | hc <;> rw [hc]
    · exact (ranges_builds sp _).1
    · exact (ranges_builds sp _).2
  simp only [inBuild, this]

theorem imageWith_builds (env : Env σ ER EW) (d : Driver F σ) (h : Supported env d) (sp : Subpage) (dest : List F)
    {f g : Driver F σ → List Byte → RamData → Res (Err ER EW) (F × List F)}
    (hf : ∀ d px ram, PanicsOr (f d px ram) (g d px ram)) :
    (imageWith (inBuild env .checked) sp dest d f).2.2 = .panic ∨
      imageWith (inBuild env .checked) sp dest d f = imageWith (inBuild env .wrapping) sp dest d g := by
  unfold imageWith
  rw [readRam_builds env d h]
  generalize Driver.readRam (inBuild env .wrapping) sp d = q
  obtain ⟨d1, ram | e | _⟩ := q
  · rcases hf d1 d1.pixelBuf ram with hp | hp
    · left; simp only [hp]
    · right; simp only [hp]
  · right; rfl
  · right; rfl

theorem subpage_builds (env : Env σ ER EW) (d : Driver F σ) (h : Supported env d) (sp : Subpage) (dest : List F) :
    ((Driver.generateImageSubpageTo (inBuild env .checked) sp dest d).2.2 = .panic ∨
      Driver.generateImageSubpageTo (inBuild env .checked) sp dest d =
        Driver.generateImageSubpageTo (inBuild env .wrapping) sp dest d) ∧
    ((Driver.generateRawImageSubpageTo (inBuild env .checked) sp dest d).2.2 = .panic ∨
      Driver.generateRawImageSubpageTo (inBuild env .checked) sp dest d =
        Driver.generateRawImageSubpageTo (inBuild env .wrapping) sp dest d) := by
  constructor
  · rw [imageSubpage_eq, imageSubpage_eq]
    refine imageWith_builds env d h sp dest (f := fun d => toTemperatures .checked d sp dest)
      (g := fun d => toTemperatures .wrapping d sp dest) fun d px ram => ?_
    unfold toTemperatures
    exact temperatures_builds ..
  · rw [rawImageSubpage_eq, rawImageSubpage_eq]
    refine imageWith_builds env d h sp dest (f := fun d => toRawImage .checked d sp dest)
      (g := fun d => toRawImage .wrapping d sp dest) fun d px ram => ?_
    unfold toRawImage
    exact irData_builds ..

theorem ifReady_builds (env : Env σ ER EW) (d : Driver F σ) (h : Supported env d) (dest : List F) :
    (Driver.generateImageIfReady (inBuild env .checked) dest d).2.2 = .panic ∨
      Driver.generateImageIfReady (inBuild env .checked) dest d = Driver.generateImageIfReady (inBuild env .wrapping) dest d := by
  rw [ifReady_eq, ifReady_eq]
  simp only [inBuild]
  generalize regRead env.bus d.bus d.addr 0x8000#16 = q
  obtain ⟨s1, e | w⟩ := q
  · right; rfl
  · simp only
    split
    · rcases (subpage_builds env { d with bus := s1 } ⟨h.1, h.2, h.3⟩ (if w.getLsbD 0 then .one else .zero) dest).1 with hp | hp
      · left
        simp only [inBuild] at hp
        generalize Driver.generateImageSubpageTo _ (if w.getLsbD 0 then Subpage.one else .zero) dest { d with bus := s1 } = q at hp ⊢
        obtain ⟨d2, dest2, r⟩ := q
        simp only at hp
        subst hp
        rfl
      · right
        simp only [inBuild] at hp
        rw [hp]
    · right; rfl

theorem generateImageTo_builds (env : Env σ ER EW) (d : Driver F σ) (h : Supported env d) (dest : List F) :
    (Driver.generateImageTo (inBuild env .checked) dest d).2.2 = .panic ∨
      Driver.generateImageTo (inBuild env .checked) dest d = Driver.generateImageTo (inBuild env .wrapping) dest d := by
  rw [generateImageTo_eq, generateImageTo_eq]
  simp only [inBuild]
  generalize regRead env.bus d.bus d.addr 0x8000#16 = q
  obtain ⟨s1, e | w⟩ := q
  · right; rfl
  · exact (subpage_builds env { d with bus := s1 } ⟨h.1, h.2, h.3⟩ _ dest).1

theorem pollStatus_builds (env : Env σ ER EW) (fuel : Nat) :
    (Driver.pollStatus (inBuild env .checked) fuel : DM F σ ER EW Bool) = Driver.pollStatus (inBuild env .wrapping) fuel := by
  induction fuel with
  | zero => rfl
  | succ n ih =>
    unfold Driver.pollStatus
    rw [ih]
    rfl

theorem synchronize_builds (env : Env σ ER EW) (fuel : Nat) (d : Driver F σ) :
    Driver.synchronize (inBuild env .checked) fuel d = Driver.synchronize (inBuild env .wrapping) fuel d := by
  unfold Driver.synchronize
  rw [pollStatus_builds]
  rfl

/-- **C62 (calls).** On a driver of one of the two cameras, whatever the bus does: a method call with overflow checks
either panics, or has the same outcome, leaves the same driver, the same bus state and the same destination as
without them; `generate_image_if_ready` also returns the same answer. Calls that make no image are the same in any
case. -/
theorem C62_calls (env : Env σ ER EW) (d : Driver F σ) (h : Supported env d) (op : Op F) :
    ((op.exec (inBuild env .checked) d).2 = .panic ∨
      op.exec (inBuild env .checked) d = op.exec (inBuild env .wrapping) d ∧
      destinationAfter (inBuild env .checked) op d = destinationAfter (inBuild env .wrapping) op d) ∧
    (isImage op = false → op.exec (inBuild env .checked) d = op.exec (inBuild env .wrapping) d) ∧
    (∀ dest, PanicsOr (Driver.generateImageIfReady (inBuild env .checked) dest d).2.2
      (Driver.generateImageIfReady (inBuild env .wrapping) dest d).2.2) := by
  have key : ∀ {α : Type} (p q : Driver F σ × List F × Res (Err ER EW) α), (p.2.2 = .panic ∨ p = q) →
      ((discardImage p).2 = .panic ∨ discardImage p = discardImage q ∧ p.2.1 = q.2.1) := by
    intro α p q h
    rcases h with h | rfl
    · left; unfold discardImage discard; simp only [h]
    · exact Or.inr ⟨rfl, rfl⟩
  refine ⟨?_, ?_, fun dest => ?_⟩
  · cases op with
    | generateRawImageSubpageTo sp dest => exact key _ _ (subpage_builds env d h sp dest).2
    | generateImageSubpageTo sp dest => exact key _ _ (subpage_builds env d h sp dest).1
    | generateImageTo dest => exact key _ _ (generateImageTo_builds env d h dest)
    | generateImageIfReady dest => exact key _ _ (ifReady_builds env d h dest)
    | synchronize fuel =>
      exact Or.inr ⟨congrArg discard (synchronize_builds env fuel d), rfl⟩
    | _ => exact Or.inr ⟨rfl, rfl⟩
  · intro hi
    cases op with
    | generateRawImageSubpageTo sp dest => simp [isImage] at hi
    | generateImageSubpageTo sp dest => simp [isImage] at hi
    | generateImageTo dest => simp [isImage] at hi
    | generateImageIfReady dest => simp [isImage] at hi
    | synchronize fuel => exact congrArg discard (synchronize_builds env fuel d)
    | _ => rfl
  · rcases ifReady_builds env d h dest with hp | hp
    · exact Or.inl hp
    · exact Or.inr (by rw [hp])

/-- **C62 (histories).** As long as no call of a history panics with overflow checks, the whole history - every
outcome, every destination and the final driver and bus state - is the same without them. -/
theorem C62_histories (env : Env σ ER EW) (d : Driver F σ) (h : Supported env d) (ops : List (Op F))
    (hp : ∀ o ∈ images (inBuild env .checked) ops d, o.1 ≠ .panic) :
    images (inBuild env .checked) ops d = images (inBuild env .wrapping) ops d ∧
    runOps (inBuild env .checked) ops d = runOps (inBuild env .wrapping) ops d := by
  induction ops generalizing d with
  | nil => exact ⟨rfl, rfl⟩
  | cons op ops ih =>
    unfold images at hp
    rcases (C62_calls env d h op).1 with h1 | ⟨h1, h2⟩
    · exact absurd h1 (hp _ (List.mem_cons_self ..))
    · have hs : Supported env (op.exec (inBuild env .checked) d).1 := by
        obtain ⟨h3, _⟩ := exec_supported (env := inBuild env .checked) (d := d) ⟨h.1, h.2, h.3⟩ op
        exact ⟨h3.1, h3.2, h3.3⟩
      obtain ⟨h3, h4⟩ := ih _ hs fun o ho => hp o (List.mem_cons_of_mem _ ho)
      rw [h1] at h3 h4
      refine ⟨?_, ?_⟩
      · unfold images
        rw [h1, h2, h3]
      · unfold runOps at h4 ⊢
        rw [List.foldl_cons, List.foldl_cons, h1, h4]

/-- A camera whose supply voltage reading is the largest 16-bit number, and whose status says there is a frame. -/
def surgeCamera : SimpleCamera :=
  { addr := 0x33#8, mem := fun a => if a = 0x072A#16 then 0x7FFF#16 else (toyCamera 9).mem a }

/-- C62, C63: on a camera with an extreme supply voltage reading the checked build panics where the other one makes
an image, and the two agree on an ordinary camera. -/
example :
    ((Op.generateImageIfReady []).exec ⟨.checked, 24, simpleBus⟩ (toyDriver Mlx90640.cam 768 surgeCamera)).2 = .panic ∧
    ((Op.generateImageIfReady []).exec ⟨.wrapping, 24, simpleBus⟩ (toyDriver Mlx90640.cam 768 surgeCamera)).2 = .ok () ∧
    ((Op.generateImageIfReady []).exec ⟨.checked, 24, simpleBus⟩ (toyDriver Mlx90640.cam 768 (toyCamera 9))).2 = .ok () := by
  refine ⟨?_, ?_, ?_⟩ <;> decide +kernel

/-- C62 (histories): a history of four calls without a panic, on an ordinary camera. -/
example :
    ∀ o ∈ images (inBuild ⟨.checked, 24, simpleBus⟩ .checked)
        [.setFrameRate .eight, .generateImageIfReady [], .generateImageIfReady [], .synchronize 3]
        (toyDriver Mlx90640.cam 768 (toyCamera 9)), o.1 ≠ .panic := by
  decide +kernel

/-- C62 (decoding): the two outcomes do differ on some dumps. -/
example : Mlx90640.fromData (F := Int) .checked overflow640 = .panic ∧
    ∃ c, Mlx90640.fromData (F := Int) .wrapping overflow640 = .ok c := by
  have hl : 1664 ≤ overflow640.length := by unfold overflow640; rw [dump_length]
  exact ⟨overflow640_panics, ((C24_dump_length .wrapping overflow640).2.2 hl).2.1⟩

/-- C64: a call whose second transaction fails returns that transaction's error. -/
example : ((Op.setUseSubpages false).exec (recordedEnv ⟨.checked, 24, readOnlyBus⟩)
      (toyDriver Mlx90640.cam 768 (toyCamera 9, []))).2 = .err (.i2cWrite ()) ∧
    ((Op.setUseSubpages false).exec (recordedEnv ⟨.checked, 24, readOnlyBus⟩)
      (toyDriver Mlx90640.cam 768 (toyCamera 9, []))).1.bus.2.length = 2 := by
  constructor <;> decide +kernel

end Mlx.Props
