import Verif.Props.Driver
import Verif.Proofs.Calc
/-
The image methods on a recorded bus, by cases.
-/
set_option linter.unusedSectionVars false
set_option autoImplicit false
namespace Mlx.Proofs
open Mlx Mlx.Spec F32Ops
variable {F σ ER EW : Type} [F32Ops F]

theorem _root_.Mlx.Spec.Follows.all_ok {addr : Byte} {p : List (Word × Nat)} {ts : List (Txn ER EW)}
    (h : Follows addr p ts none) : ∀ t ∈ ts, t.succeeded = true := by
  generalize hr : (none : Option (Err ER EW)) = r0 at h
  induction h with
  | done => intro t ht; cases ht
  | next hl _ ih =>
    intro t ht
    rcases List.mem_cons.1 ht with rfl | ht
    · rfl
    · exact ih hr t ht
  | failed => cases hr

theorem _root_.Mlx.Spec.Follows.fails {addr : Byte} {p : List (Word × Nat)} {ts : List (Txn ER EW)} {e : Err ER EW}
    (h : Follows addr p ts (some e)) : FailsAtEnd ts e ∧ ∃ e', e = .i2cWriteRead e' := by
  generalize hr : some e = r at h
  induction h with
  | done => cases hr
  | next hl _ ih =>
    obtain ⟨⟨init, last, h1, h2, h3⟩, h4⟩ := ih hr
    refine ⟨⟨_ :: init, last, by rw [h1]; rfl, ?_, h3⟩, h4⟩
    intro t ht
    rcases List.mem_cons.1 ht with rfl | ht
    · rfl
    · exact h2 t ht
  | failed => cases hr; exact ⟨⟨[], _, rfl, by simp, rfl⟩, _, rfl⟩

theorem common_no_err {m : Mode} {c : Calib F} {em rc : F} {ram : RamData} {ε : Type} (e : ε) :
    CommonIrData.new m rc em c ram ≠ .err e := by
  unfold CommonIrData.new deltaV arith16
  split
  · simp
  · cases m <;> simp

theorem toTemperatures_no_err (m : Mode) (d : Driver F σ) (sp : Subpage) (dest : List F) (px : List Byte)
    (ram : RamData) (e : Err ER EW) : toTemperatures m d sp dest px ram ≠ .err e := by
  unfold toTemperatures rawPixelsToTemperatures idx
  cases h : CommonIrData.new (ε := Err ER EW) m d.resCorr d.emissivity d.calib ram with
  | err e => exact absurd h (common_no_err e)
  | panic => simp
  | ok c =>
    simp only [Res.ok_bind]
    cases d.calib.kSTo[d.calib.cam.basicRange]? <;> simp

theorem toRawImage_no_err (m : Mode) (d : Driver F σ) (sp : Subpage) (dest : List F) (px : List Byte)
    (ram : RamData) (e : Err ER EW) : toRawImage m d sp dest px ram ≠ .err e := by
  unfold toRawImage rawPixelsToIrData
  cases h : CommonIrData.new (ε := Err ER EW) m d.resCorr d.emissivity d.calib ram with
  | err e => exact absurd h (common_no_err e)
  | panic => simp
  | ok c => simp

/-- The common shape of the two subpage methods. -/
def imageWith (env : Env σ ER EW) (sp : Subpage) (dest : List F) (d : Driver F σ)
    (conv : Driver F σ → List Byte → RamData → Res (Err ER EW) (F × List F)) :
    Driver.ImageResult F σ ER EW Unit :=
  match Driver.readRam env sp d with
  | (d, .err e) => (d, dest, .err e)
  | (d, .panic) => (d, dest, .panic)
  | (d, .ok ram) =>
    match conv d d.pixelBuf ram with
    | .err e => (d, dest, .err e)
    | .panic => (d, dest, .panic)
    | .ok (tA, dest') => ({ d with ambient := some tA }, dest', .ok ())

theorem imageSubpage_eq (env : Env σ ER EW) (sp : Subpage) (dest : List F) (d : Driver F σ) :
    Driver.generateImageSubpageTo env sp dest d =
      imageWith env sp dest d (fun d => toTemperatures env.mode d sp dest) := rfl

theorem rawImageSubpage_eq (env : Env σ ER EW) (sp : Subpage) (dest : List F) (d : Driver F σ) :
    Driver.generateRawImageSubpageTo env sp dest d =
      imageWith env sp dest d (fun d => toRawImage env.mode d sp dest) := rfl

theorem ifReady_eq (env : Env σ ER EW) (dest : List F) (d : Driver F σ) :
    Driver.generateImageIfReady env dest d =
      match (regRead env.bus d.bus d.addr 0x8000#16).2 with
      | .error e => ({ d with bus := (regRead env.bus d.bus d.addr 0x8000#16).1 }, dest, .err (.i2cWriteRead e))
      | .ok w =>
        let d := { d with bus := (regRead env.bus d.bus d.addr 0x8000#16).1 }
        if w.getLsbD 3 then
          match Driver.generateImageSubpageTo env (if w.getLsbD 0 then .one else .zero) dest d with
          | (d, dest', .ok ()) =>
            ({ d with bus := (regWrite env.bus d.bus d.addr 0x8000#16 (StatusReg.resetNewData ⟨w⟩).raw).1 }, dest',
              match (regWrite env.bus d.bus d.addr 0x8000#16 (StatusReg.resetNewData ⟨w⟩).raw).2 with
              | none => .ok true
              | some e => .err (.i2cWrite e))
          | (d, dest', .err e) => (d, dest', .err e)
          | (d, dest', .panic) => (d, dest', .panic)
        else (d, dest, .ok false) := by
  unfold Driver.generateImageIfReady
  rw [statusRegister_eq]
  cases (regRead env.bus d.bus d.addr 0x8000#16).2 with
  | error e => rfl
  | ok w =>
    simp only [status_newData, status_subpage]
    by_cases h3 : w.getLsbD 3 = true
    · rw [if_pos h3, if_pos h3]
      unfold Driver.generateImageSubpageTo
      generalize Driver.readRam env (if w.getLsbD 0 then .one else .zero)
        { d with bus := (regRead env.bus d.bus d.addr 0x8000#16).1 } = q
      obtain ⟨d1, ram | e | _⟩ := q
      · simp only
        generalize rawPixelsToTemperatures (ε := Err ER EW) env.mode d1.calib d1.emissivity d1.reflected d1.resCorr
          d1.pixelBuf ram (if w.getLsbD 0 then .one else .zero) d1.accessPattern
          (d1.calib.cam.pixelsInSubpage (if w.getLsbD 0 then .one else .zero) d1.accessPattern) dest = c
        obtain ⟨tA, dest'⟩ | e | _ := c
        · simp only [setStatusRegister_eq]
          cases (regWrite env.bus d1.bus d1.addr 0x8000#16 (StatusReg.resetNewData ⟨w⟩).raw).2 <;> rfl
        · rfl
        · rfl
      · rfl
      · rfl
    · rw [if_neg h3, if_neg h3]

theorem generateImageTo_eq (env : Env σ ER EW) (dest : List F) (d : Driver F σ) :
    Driver.generateImageTo env dest d =
      match (regRead env.bus d.bus d.addr 0x8000#16).2 with
      | .error e => ({ d with bus := (regRead env.bus d.bus d.addr 0x8000#16).1 }, dest, .err (.i2cWriteRead e))
      | .ok w => Driver.generateImageSubpageTo env (if w.getLsbD 0 then .one else .zero) dest
          { d with bus := (regRead env.bus d.bus d.addr 0x8000#16).1 } := by
  unfold Driver.generateImageTo Driver.lastMeasuredSubpage
  rw [dm_bind, statusRegister_eq]
  cases (regRead env.bus d.bus d.addr 0x8000#16).2 with
  | error e => rfl
  | ok w => simp only [DM.lift, status_subpage]

/-- Every transaction is one of the planned reads. -/
theorem _root_.Mlx.Spec.Follows.planned {addr : Byte} {p : List (Word × Nat)} {ts : List (Txn ER EW)}
    {r : Option (Err ER EW)} (h : Follows addr p ts r) :
    ∀ t ∈ ts, ∃ a n res, (a, n) ∈ p ∧ t = .read addr (toBe a) n res := by
  induction h with
  | done => intro t ht; cases ht
  | next hl _ ih =>
    intro t ht
    rcases List.mem_cons.1 ht with rfl | ht
    · exact ⟨_, _, _, List.mem_cons_self .., rfl⟩
    · obtain ⟨a, n, res, h1, h2⟩ := ih t ht
      exact ⟨a, n, res, List.mem_cons_of_mem _ h1, h2⟩
  | failed =>
    intro t ht
    rw [List.mem_singleton] at ht
    exact ⟨_, _, _, List.mem_cons_self .., ht⟩

theorem toBe_inj {a b : Word} (h : toBe a = toBe b) : a = b := by
  have e1 := be16_toBe a
  have e2 := be16_toBe b
  unfold toBe at h
  simp only [List.cons.injEq, and_true] at h
  rw [h.1, h.2] at e1
  exact e1.symm.trans e2

/-- No planned read covers a register. -/
theorem ramPlan_below {env : Env σ ER EW} {d : Driver F σ} (h : Supported env d) (sp : Subpage)
    (a : AccessPattern) (rs : List PixelRange)
    (hrs : d.calib.cam.collectRanges env.mode sp a env.height = .ok rs) :
    ∀ an ∈ ramPlan d.calib.cam rs sp, an.1.toNat + (an.2 + 1) / 2 ≤ 0x0800 := by
  intro an hp
  unfold ramPlan at hp
  rw [h.height] at hrs
  rcases List.mem_append.1 hp with hp | hp
  · obtain ⟨r, hr, rfl⟩ := List.mem_map.1 hp
    have hb : r.startAddress + r.length / 2 ≤ 0x0700 ∧ r.length % 2 = 0 := by
      rcases h.cam with hc | hc
      · obtain ⟨rs', h1, _, h2, _⟩ := Props.C14_mlx90640_ram_ranges env.mode sp a
        rw [hc, h1] at hrs
        cases hrs
        have := h2 r hr
        omega
      · obtain ⟨rs', h1, _, h2, _⟩ := Props.C15_mlx90641_ram_ranges env.mode sp a
        rw [hc, h1] at hrs
        cases hrs
        have := h2 r hr
        omega
    simp only [BitVec.toNat_ofNat]
    omega
  · rcases h.cam with hc | hc
    · rw [hc] at hp
      cases sp <;>
      · simp only [List.mem_cons, List.not_mem_nil, or_false, Mlx90640.cam] at hp
        rcases hp with rfl | rfl | rfl | rfl | rfl <;> decide
    · rw [hc] at hp
      cases sp <;>
      · simp only [List.mem_cons, List.not_mem_nil, or_false, Mlx90641.cam] at hp
        rcases hp with rfl | rfl | rfl | rfl | rfl <;> decide

/-- A transaction of reading a frame: a read at the driver's address that covers no register. -/
def RamRead (addr : Byte) (t : Txn ER EW) : Prop :=
  t.isWrite = false ∧ t.addr = addr ∧ ∀ reg : Word, 0x0800 ≤ reg.toNat → ¬ t.covers reg

theorem _root_.Mlx.Spec.Follows.ramReads {env : Env σ ER EW} {d : Driver F σ} (h : Supported env d) {sp : Subpage}
    {a : AccessPattern} {rs : List PixelRange} {ts : List (Txn ER EW)} {r : Option (Err ER EW)}
    (hrs : d.calib.cam.collectRanges env.mode sp a env.height = .ok rs)
    (hf : Follows d.addr (ramPlan d.calib.cam rs sp) ts r) : ∀ t ∈ ts, RamRead d.addr t := by
  intro t ht
  obtain ⟨a', n, res, h1, rfl⟩ := hf.planned t ht
  refine ⟨rfl, rfl, ?_⟩
  rintro reg hreg ⟨base, hb, hlo, hhi⟩
  have := toBe_inj hb
  subst this
  have := ramPlan_below h sp a rs hrs (a', n) h1
  simp only at this
  omega

/-- The subpage methods by cases. -/
theorem imageWith_cases (env : Env σ ER EW) (d : Driver F (σ × List (Txn ER EW))) (sp : Subpage) (dest : List F)
    (h : Supported (recordedEnv env) d)
    (conv : Driver F (σ × List (Txn ER EW)) → List Byte → RamData → Res (Err ER EW) (F × List F))
    (hne : ∀ d px ram e, conv d px ram ≠ .err e)
    (hconv : ∀ bus px px' ram, conv { d with bus := bus, pixelBuf := px' } px ram = conv d px ram) :
    ∃ rs ts s' px, d.calib.cam.collectRanges env.mode sp d.accessPattern env.height = .ok rs ∧
      (∀ t ∈ ts, RamRead d.addr t) ∧
      ((∃ e, Follows d.addr (ramPlan d.calib.cam rs sp) ts (some e) ∧
          imageWith (recordedEnv env) sp dest d conv =
            ({ d with bus := (s', d.bus.2 ++ ts), pixelBuf := px }, dest, .err e)) ∨
       (∃ ram, Follows d.addr (ramPlan d.calib.cam rs sp) ts none ∧
          FrameRead d.addr d.calib.cam rs sp d.pixelBuf ts px ram ∧
          ((∃ tA dest', conv d px ram = .ok (tA, dest') ∧ imageWith (recordedEnv env) sp dest d conv =
            ({ d with bus := (s', d.bus.2 ++ ts), pixelBuf := px, ambient := some tA }, dest', .ok ())) ∨
           (conv d px ram = .panic ∧ imageWith (recordedEnv env) sp dest d conv =
            ({ d with bus := (s', d.bus.2 ++ ts), pixelBuf := px }, dest, .panic))))) := by
  obtain ⟨rs, ts, d', r, h1, h2, h3, h4, h5, h6⟩ := Props.C16_read_ram env d sp h
  have hb : d'.bus = (d'.bus.1, d.bus.2 ++ ts) := by rw [← h3]
  have hd : d' = { d with bus := (d'.bus.1, d.bus.2 ++ ts), pixelBuf := d'.pixelBuf } := by
    rw [← hb]; exact h6
  have h4 : ∀ t ∈ ts, RamRead d.addr t := by
    rcases h5 with ⟨_, _, hf, _⟩ | ⟨_, _, hf⟩
    · exact hf.ramReads (env := recordedEnv env) h h1
    · exact hf.ramReads (env := recordedEnv env) h h1
  refine ⟨rs, ts, d'.bus.1, d'.pixelBuf, h1, h4, ?_⟩
  unfold imageWith
  rw [h2]
  rcases h5 with ⟨ram, hr, h7, h8⟩ | ⟨e, hr, h7⟩
  · subst hr
    refine Or.inr ⟨ram, h7, h8, ?_⟩
    simp only
    have hc : conv d' d'.pixelBuf ram = conv d d'.pixelBuf ram := by
      conv => lhs; rw [hd]
      exact hconv _ _ _ _
    rw [hc]
    cases hv : conv d d'.pixelBuf ram with
    | err e => exact absurd hv (hne _ _ _ _)
    | panic => exact Or.inr ⟨rfl, by rw [hd]⟩
    | ok v => exact Or.inl ⟨v.1, v.2, rfl, by rw [hd]⟩
  · subst hr
    exact Or.inl ⟨e, h7, by rw [hd]⟩

/-- For any camera type, the subpage methods only read, at the driver's address. -/
theorem imageWith_reads (env : Env σ ER EW) (d : Driver F (σ × List (Txn ER EW))) (sp : Subpage) (dest : List F)
    (conv : Driver F (σ × List (Txn ER EW)) → List Byte → RamData → Res (Err ER EW) (F × List F)) :
    ∃ ts, (imageWith (recordedEnv env) sp dest d conv).1.bus.2 = d.bus.2 ++ ts ∧
      ∀ t ∈ ts, t.isWrite = false ∧ t.addr = d.addr := by
  obtain ⟨ts, h1, h2⟩ := readRam_reads env.mode d.calib.cam env.height env.bus d.bus d.addr d.accessPattern sp
    d.pixelBuf
  refine ⟨ts, ?_, h2⟩
  rw [← h1]
  unfold imageWith Driver.readRam
  show Prod.snd (Driver.bus (Prod.fst _)) = _
  have hb : (recordedEnv env).bus = recorded env.bus := rfl
  have hm : (recordedEnv env).mode = env.mode := rfl
  have hh : (recordedEnv env).height = env.height := rfl
  rw [hb, hm, hh]
  generalize Mlx.readRam env.mode d.calib.cam env.height (recorded env.bus) d.bus d.addr d.accessPattern sp
    d.pixelBuf = q
  obtain ⟨s', buf', r⟩ := q
  cases r with
  | err e => rfl
  | panic => rfl
  | ok ram =>
    simp only
    cases conv { d with bus := s', pixelBuf := buf' } buf' ram <;> rfl

theorem generateImageTo_reads (env : Env σ ER EW) (d : Driver F (σ × List (Txn ER EW))) (dest : List F) :
    ∃ ts, (Driver.generateImageTo (recordedEnv env) dest d).1.bus.2 = d.bus.2 ++ ts ∧
      ∀ t ∈ ts, t.isWrite = false ∧ t.addr = d.addr := by
  rw [generateImageTo_eq]
  have hb : (recordedEnv env).bus = recorded env.bus := rfl
  rw [hb, regRead_recorded]
  generalize regRead env.bus d.bus.1 d.addr 0x8000#16 = q
  obtain ⟨s1, e | w⟩ := q
  · exact ⟨_, rfl, by intro t ht; rw [List.mem_singleton] at ht; subst ht; exact ⟨rfl, rfl⟩⟩
  · simp only
    rw [imageSubpage_eq]
    obtain ⟨ts, h1, h2⟩ := imageWith_reads env
      { d with bus := (s1, d.bus.2 ++ [Txn.readReg d.addr 0x8000#16 (.ok w)]) }
      (if w.getLsbD 0 then .one else .zero) dest
      (fun d => toTemperatures (recordedEnv env).mode d (if w.getLsbD 0 then .one else .zero) dest)
    refine ⟨_ :: ts, by rw [h1, List.append_assoc]; rfl, ?_⟩
    intro t ht
    rcases List.mem_cons.1 ht with rfl | ht
    · exact ⟨rfl, rfl⟩
    · exact h2 t ht

end Mlx.Proofs
