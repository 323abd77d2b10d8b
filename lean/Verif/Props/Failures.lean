import Verif.Props.Recorder
import Verif.Props.Eeprom640
import Verif.Props.Eeprom641
import Verif.Spec.Builds
/-
Errors and panics of driver calls: C63, C64.
-/
set_option linter.unusedSectionVars false
set_option autoImplicit false
namespace Mlx.Props
open Mlx Mlx.Spec Mlx.Proofs F32Ops
variable {F σ ER EW : Type} [F32Ops F]

theorem common_panic {m : Mode} {c : Calib F} {em rc : F} {ram : RamData} {ε : Type} :
    CommonIrData.new (ε := ε) m rc em c ram = .panic ↔
      m = .checked ∧ ¬ (-32768 ≤ ram.vddPixel - c.vdd25 ∧ ram.vddPixel - c.vdd25 ≤ 32767) := by
  unfold CommonIrData.new deltaV arith16
  by_cases h : -32768 ≤ ram.vddPixel - c.vdd25 ∧ ram.vddPixel - c.vdd25 ≤ 32767
  · rw [if_pos h]
    simp [h]
  · rw [if_neg h]
    cases m with
    | checked => exact ⟨fun _ => ⟨rfl, h⟩, fun _ => rfl⟩
    | wrapping => exact ⟨(fun h => nomatch h), fun h => nomatch (h.1 : Mode.wrapping = Mode.checked)⟩

theorem toTemperatures_panic (m : Mode) (d : Driver F σ) (sp : Subpage) (dest : List F) (px : List Byte)
    (ram : RamData) (hk : d.calib.cam.basicRange < d.calib.kSTo.length) :
    toTemperatures (ER := ER) (EW := EW) m d sp dest px ram = .panic ↔
      m = .checked ∧ ¬ (-32768 ≤ ram.vddPixel - d.calib.vdd25 ∧ ram.vddPixel - d.calib.vdd25 ≤ 32767) := by
  rw [← common_panic (em := d.emissivity) (rc := d.resCorr) (ε := Err ER EW)]
  unfold toTemperatures rawPixelsToTemperatures idx
  rw [List.getElem?_eq_getElem hk]
  cases h : CommonIrData.new (ε := Err ER EW) m d.resCorr d.emissivity d.calib ram with
  | err e => exact absurd h (common_no_err e)
  | panic => simp
  | ok c => simp

theorem toRawImage_panic (m : Mode) (d : Driver F σ) (sp : Subpage) (dest : List F) (px : List Byte)
    (ram : RamData) :
    toRawImage (ER := ER) (EW := EW) m d sp dest px ram = .panic ↔
      m = .checked ∧ ¬ (-32768 ≤ ram.vddPixel - d.calib.vdd25 ∧ ram.vddPixel - d.calib.vdd25 ≤ 32767) := by
  rw [← common_panic (em := d.emissivity) (rc := d.resCorr) (ε := Err ER EW)]
  unfold toRawImage rawPixelsToIrData
  cases h : CommonIrData.new (ε := Err ER EW) m d.resCorr d.emissivity d.calib ram with
  | err e => exact absurd h (common_no_err e)
  | panic => simp
  | ok c => simp

theorem readReg_inj {addr : Byte} {r r' w w' : Word}
    (h : (Txn.readReg addr r (.ok w) : Txn ER EW) = Txn.readReg addr r' (.ok w')) : r = r' ∧ w = w' := by
  unfold Txn.readReg at h
  simp only [Txn.read.injEq, true_and, Except.ok.injEq] at h
  exact ⟨toBe_inj h.1, toBe_inj h.2⟩

/-- The reading of the supply voltage of a complete frame is the only transaction at its address. -/
theorem frame_voltage {env : Env σ ER EW} {d : Driver F σ} (h : Supported env d) {sp : Subpage} {rs : List PixelRange}
    {ap : AccessPattern} {old : List Byte} (hrs : d.calib.cam.collectRanges env.mode sp ap env.height = .ok rs)
    {ts : List (Txn ER EW)} {px : List Byte} {ram : RamData}
    (hf : FrameRead d.addr d.calib.cam rs sp old ts px ram) (w : Word) :
    .readReg d.addr d.calib.cam.vddPixel (.ok w) ∈ ts ↔ ram.vddPixel = w.toInt := by
  obtain ⟨chunks, vbe, ptat, vdd, gain, cp, _, rfl, _, rfl⟩ := hf
  have hne : ∀ r ∈ rs, BitVec.ofNat 16 r.startAddress ≠ d.calib.cam.vddPixel := by
    intro r hr hc
    rw [h.height] at hrs
    have hc' := congrArg BitVec.toNat hc
    rw [BitVec.toNat_ofNat] at hc'
    rcases h.cam with hcam | hcam
    · obtain ⟨rs', h1, _, h2, _⟩ := C14_mlx90640_ram_ranges env.mode sp ap
      rw [hcam, h1] at hrs
      cases hrs
      have := h2 r hr
      rw [hcam, show Mlx90640.cam.vddPixel.toNat = 0x072A from rfl] at hc'
      omega
    · obtain ⟨rs', h1, _, h2, _⟩ := C15_mlx90641_ram_ranges env.mode sp ap
      rw [hcam, h1] at hrs
      cases hrs
      have := h2 r hr
      rw [hcam, show Mlx90641.cam.vddPixel.toNat = 0x05AA from rfl] at hc'
      omega
  have ha : d.calib.cam.vddPixel ≠ d.calib.cam.tAVbe ∧ d.calib.cam.vddPixel ≠ d.calib.cam.tAPtat ∧
      d.calib.cam.vddPixel ≠ d.calib.cam.gain ∧ d.calib.cam.vddPixel ≠ d.calib.cam.compensationPixel sp := by
    rcases h.cam with hcam | hcam
    · rw [hcam]; cases sp <;> decide
    · rw [hcam]; cases sp <;> decide
  simp only
  constructor
  · intro hm
    rcases List.mem_append.1 hm with hm | hm
    · obtain ⟨rc, hrc, he⟩ := List.mem_map.1 hm
      have hr := (List.of_mem_zip (a := rc.1) (b := rc.2) hrc).1
      unfold Txn.readReg at he
      simp only [Txn.read.injEq, true_and] at he
      exact absurd (toBe_inj he.1) (hne _ hr)
    · simp only [List.mem_cons, List.not_mem_nil, or_false] at hm
      rcases hm with hm | hm | hm | hm | hm
      · exact absurd (readReg_inj hm).1 ha.1
      · exact absurd (readReg_inj hm).1 ha.2.1
      · rw [(readReg_inj hm).2]
      · exact absurd (readReg_inj hm).1 ha.2.2.1
      · exact absurd (readReg_inj hm).1 ha.2.2.2
  · intro hw
    have : vdd = w := BitVec.eq_of_toInt_eq hw
    subst this
    exact List.mem_append_right _ (by simp)

/-- What is shown of every call: its transactions, what they report, and when it panics. -/
def CallOutcome (checked image : Prop) (log : List (Txn ER EW)) (addr : Byte) (c : Calib F) (log' : List (Txn ER EW))
    (r : Res (Err ER EW) Unit) : Prop :=
  ∃ ts, log' = log ++ ts ∧ AccountsFor ts r ∧
    (r = .panic ↔ checked ∧ image ∧ (∀ t ∈ ts, t.succeeded = true) ∧ VoltageOverflow addr c ts)

theorem imageWith_outcome (env : Env σ ER EW) (d : Driver F (σ × List (Txn ER EW))) (sp : Subpage) (dest : List F)
    (h : Supported (recordedEnv env) d)
    (conv : Driver F (σ × List (Txn ER EW)) → List Byte → RamData → Res (Err ER EW) (F × List F))
    (hne : ∀ d px ram e, conv d px ram ≠ .err e)
    (hconv : ∀ bus px px' ram, conv { d with bus := bus, pixelBuf := px' } px ram = conv d px ram)
    (hp : ∀ px ram, conv d px ram = .panic ↔ env.mode = .checked ∧
      ¬ (-32768 ≤ ram.vddPixel - d.calib.vdd25 ∧ ram.vddPixel - d.calib.vdd25 ≤ 32767)) :
    CallOutcome (env.mode = .checked) True d.bus.2 d.addr d.calib
      (imageWith (recordedEnv env) sp dest d conv).1.bus.2 (imageWith (recordedEnv env) sp dest d conv).2.2 := by
  obtain ⟨rs, ts, s', px, hrs, _, hcase⟩ := imageWith_cases env d sp dest h conv hne hconv
  have hv := fun ram (hf : FrameRead d.addr d.calib.cam rs sp d.pixelBuf ts px ram) (w : Word) =>
    frame_voltage (env := recordedEnv env) h hrs hf w
  rcases hcase with ⟨e, hf, he⟩ | ⟨ram, hf, hfr, ⟨tA, dest', hc, he⟩ | ⟨hc, he⟩⟩
  · rw [he]
    refine ⟨ts, rfl, hf.fails.1, (fun h => nomatch h), fun ⟨_, _, hs, _⟩ => ?_⟩
    obtain ⟨⟨init, last, rfl, _, hl⟩, _⟩ := hf.fails
    have := hs last (List.mem_append_right _ (List.mem_singleton_self _))
    cases last with
    | read a s n res => cases res with
      | error e => cases this
      | ok b => cases hl
    | write a s res => cases res with
      | some e => cases this
      | none => cases hl
  · rw [he]
    refine ⟨ts, rfl, hf.all_ok, (fun h => nomatch h), fun ⟨hm, _, _, w, hw, hov⟩ => ?_⟩
    rw [(hv ram hfr w), ] at hw
    have := (hp px ram).2 ⟨hm, by rw [hw]; exact hov⟩
    rw [hc] at this; cases this
  · rw [he]
    refine ⟨ts, rfl, hf.all_ok, fun _ => ?_, fun _ => rfl⟩
    obtain ⟨hm, hov⟩ := (hp px ram).1 hc
    obtain ⟨chunks, vbe, ptat, vdd, gain, cp, h1, h2, h3, rfl⟩ := id hfr
    exact ⟨hm, trivial, hf.all_ok, vdd, (hv _ hfr vdd).2 rfl, hov⟩

theorem callOutcome_reads {P Q : Prop} {addr : Byte} {c : Calib F} {log : List (Txn ER EW)} (ts : List (Txn ER EW))
    {r : Res (Err ER EW) Unit} (hr : AccountsFor ts r) (hn : r ≠ .panic) (hq : ¬ Q) :
    CallOutcome P Q log addr c (log ++ ts) r :=
  ⟨ts, rfl, hr, fun h => absurd h hn, fun ⟨_, h, _⟩ => absurd h hq⟩

theorem reports_one (addr : Byte) (reg : Word) (res : Except ER Word) :
    AccountsFor (EW := EW) [.readReg addr reg res]
      (match res with | .ok _ => .ok () | .error e => .err (.i2cWriteRead e)) := by
  cases res with
  | error e => exact ⟨[], _, rfl, (fun t ht => nomatch ht), rfl⟩
  | ok w => intro t ht; rw [List.mem_singleton] at ht; subst ht; rfl

theorem reports_rmw (addr : Byte) (reg w w' : Word) (we : Option EW) (mid : List (Txn ER EW))
    (hm : ∀ t ∈ mid, t.succeeded = true) :
    AccountsFor (.readReg addr reg (.ok w) :: mid ++ [.writeReg addr reg w' we])
      (match we with | none => .ok () | some e => .err (.i2cWrite e)) := by
  cases we with
  | none =>
    intro t ht
    simp only [List.cons_append, List.mem_cons, List.mem_append, List.not_mem_nil, or_false] at ht
    rcases ht with rfl | ht | rfl
    · rfl
    · exact hm t ht
    · rfl
  | some e =>
    refine ⟨.readReg addr reg (.ok w) :: mid, _, rfl, ?_, rfl⟩
    intro t ht
    rcases List.mem_cons.1 ht with rfl | ht
    · rfl
    · exact hm t ht

theorem not_voltage {env : Env σ ER EW} {d : Driver F σ} (h : Supported env d) (reg : Word) (hr : 0x8000 ≤ reg.toNat) :
    d.calib.cam.vddPixel ≠ reg := by
  rintro rfl
  rcases h.cam with hc | hc <;> rw [hc] at hr <;> revert hr <;> decide

/-- A status read before a call that reads a frame. -/
theorem callOutcome_status {env : Env σ ER EW} {d : Driver F σ} (h : Supported env d) {P Q : Prop}
    {log log' : List (Txn ER EW)} {w : Word} {r : Res (Err ER EW) Unit}
    (ho : CallOutcome P Q (log ++ [.readReg d.addr 0x8000#16 (.ok w)]) d.addr d.calib log' r) :
    CallOutcome P Q log d.addr d.calib log' r := by
  obtain ⟨ts, h1, h2, h3⟩ := ho
  have hsucc : (∀ t ∈ ts, t.succeeded = true) ↔
      ∀ t ∈ Txn.readReg (ER := ER) (EW := EW) d.addr 0x8000#16 (.ok w) :: ts, t.succeeded = true := by
    constructor
    · intro hs t ht
      rcases List.mem_cons.1 ht with rfl | ht
      · rfl
      · exact hs t ht
    · intro hs t ht; exact hs t (List.mem_cons_of_mem _ ht)
  refine ⟨.readReg d.addr 0x8000#16 (.ok w) :: ts, by rw [h1, List.append_assoc]; rfl, ?_, ?_⟩
  · cases r with
    | ok a => exact hsucc.1 h2
    | panic => exact hsucc.1 h2
    | err e =>
      obtain ⟨init, last, rfl, hs, hl⟩ := h2
      refine ⟨.readReg d.addr 0x8000#16 (.ok w) :: init, last, rfl, ?_, hl⟩
      intro t ht
      rcases List.mem_cons.1 ht with rfl | ht
      · rfl
      · exact hs t ht
  · rw [h3, hsucc]
    have : VoltageOverflow d.addr d.calib ts ↔
        VoltageOverflow d.addr d.calib (.readReg d.addr 0x8000#16 (.ok w) :: ts) := by
      unfold VoltageOverflow
      constructor
      · rintro ⟨w', hw', ho⟩; exact ⟨w', List.mem_cons_of_mem _ hw', ho⟩
      · rintro ⟨w', hw', ho⟩
        rcases List.mem_cons.1 hw' with hw' | hw'
        · exact absurd (readReg_inj hw').1 (not_voltage h _ (by decide))
        · exact ⟨w', hw', ho⟩
    rw [this]

theorem call_outcome (env : Env σ ER EW) (d : Driver F (σ × List (Txn ER EW))) (h : Supported (recordedEnv env) d)
    (hk : d.calib.cam.basicRange < d.calib.kSTo.length) (op : Op F) :
    CallOutcome (env.mode = .checked) (isImage op = true) d.bus.2 d.addr d.calib
      (op.exec (recordedEnv env) d).1.bus.2 (op.exec (recordedEnv env) d).2 := by
  have hb : (recordedEnv env).bus = recorded env.bus := rfl
  have himg : ∀ sp dest, CallOutcome (env.mode = .checked) True d.bus.2 d.addr d.calib
      (Driver.generateImageSubpageTo (recordedEnv env) sp dest d).1.bus.2
      (Driver.generateImageSubpageTo (recordedEnv env) sp dest d).2.2 := fun sp dest =>
    imageWith_outcome env d sp dest h (fun d => toTemperatures env.mode d sp dest)
      (fun d px ram e => toTemperatures_no_err _ _ _ _ _ _ _) (fun _ _ _ _ => rfl)
      (fun px ram => toTemperatures_panic _ _ _ _ _ _ hk)
  have hsplit : ∀ {P : Prop} {log log' : List (Txn ER EW)} {a : Byte} {c : Calib F} {r : Res (Err ER EW) Unit},
      CallOutcome P True log a c log' r → CallOutcome P (true = true) log a c log' r := by
    intro P log log' a c r hx
    obtain ⟨ts, h1, h2, h3⟩ := hx
    exact ⟨ts, h1, h2, by rw [h3]; simp⟩
  refine op_cases (recordedEnv env) (P := fun op => CallOutcome (env.mode = .checked) (isImage op = true) d.bus.2
    d.addr d.calib (op.exec (recordedEnv env) d).1.bus.2 (op.exec (recordedEnv env) d).2)
    ?_ ?_ ?_ ?_ ?_ ?_ ?_ ?_ ?_ ?_ ?_ ?_ ?_ op
  · intro op f hf he _ hi _ _
    rw [he, hi]
    obtain ⟨s', res, d', r, h1, h2, h3⟩ := C40_control_getters env d f hf
    unfold discard
    rw [h1, h2]
    cases res with
    | error e =>
      rw [h3.1]
      exact callOutcome_reads _ (reports_one d.addr 0x800D#16 (.error e)) (by simp) (by simp)
    | ok w =>
      obtain ⟨v, hv, _⟩ := h3.1
      rw [hv]
      exact callOutcome_reads _ (reports_one d.addr 0x800D#16 (.ok w)) (by simp) (by simp)
  · intro op f hf v he _ hi _ _
    rw [he, hi]
    unfold discard
    obtain ⟨d', r, h1, ⟨e, h2, h3, _⟩ | ⟨w, h2, h3, _⟩ | ⟨w, w', we, h2, _, _, h3, _⟩, _⟩ := C41_control_setters env d f hf v
    · rw [h1, h2, h3]
      exact callOutcome_reads _ (reports_one d.addr 0x800D#16 (.error e)) (by simp) (by simp)
    · rw [h1, h2, h3]
      exact callOutcome_reads _ (reports_one d.addr 0x800D#16 (.ok w)) (by simp) (by simp)
    · rw [h1, h2, h3]
      refine callOutcome_reads _ ?_ (by cases we <;> simp) (by simp)
      have := reports_rmw (ER := ER) d.addr 0x800D#16 w w' we [] (fun t ht => nomatch ht)
      cases we <;> exact this
  · intro op he _ hi _ _
    rw [he, hi]
    simp only [hb, regRead_recorded]
    refine callOutcome_reads _ ?_ ?_ (by simp)
    · exact reports_one d.addr 0x8000#16 _
    · cases (regRead env.bus d.bus.1 d.addr 0x8000#16).2 <;> simp
  · intro v
    show CallOutcome _ _ _ _ _ (discard (Driver.setOverwriteEnabled (recordedEnv env) v d)).1.bus.2
      (discard (Driver.setOverwriteEnabled (recordedEnv env) v d)).2
    unfold discard
    obtain ⟨d', r, h1, ⟨e, h2, h3⟩ | ⟨w, h2, h3, _⟩ | ⟨w, w', we, h2, _, _, h3⟩⟩ := C41_overwrite_setter env d v
    · rw [h1, h2, h3]
      exact callOutcome_reads _ (reports_one d.addr 0x8000#16 (.error e)) (by simp) (by simp [isImage])
    · rw [h1, h2, h3]
      exact callOutcome_reads _ (reports_one d.addr 0x8000#16 (.ok w)) (by simp) (by simp [isImage])
    · rw [h1, h2, h3]
      refine callOutcome_reads _ ?_ (by cases we <;> simp) (by simp [isImage])
      have := reports_rmw (ER := ER) d.addr 0x8000#16 w w' we [] (fun t ht => nomatch ht)
      cases we <;> exact this
  · show CallOutcome _ _ _ _ _ (discard (Driver.resetDataAvailable (recordedEnv env) d)).1.bus.2
      (discard (Driver.resetDataAvailable (recordedEnv env) d)).2
    unfold discard
    obtain ⟨d', r, h1, ⟨e, h2, h3⟩ | ⟨w, w', we, h2, _, h3⟩⟩ := (C42_data_available_flag env d).2
    · rw [h1, h2, h3]
      exact callOutcome_reads _ (reports_one d.addr 0x8000#16 (.error e)) (by simp) (by simp [isImage])
    · rw [h1, h2, h3]
      refine callOutcome_reads _ ?_ (by cases we <;> simp) (by simp [isImage])
      have := reports_rmw (ER := ER) d.addr 0x8000#16 w w' we [] (fun t ht => nomatch ht)
      cases we <;> exact this
  · intro v
    have := callOutcome_reads (P := env.mode = .checked) (Q := isImage (Op.overrideEmissivity v) = true) (addr := d.addr)
      (c := d.calib) (log := d.bus.2) (r := .ok ()) ([] : List (Txn ER EW)) (fun t ht => nomatch ht) (by simp) (by simp [isImage])
    rwa [List.append_nil] at this
  · have := callOutcome_reads (P := env.mode = .checked) (Q := isImage (Op.useDefaultEmissivity (F := F)) = true)
      (addr := d.addr) (c := d.calib) (log := d.bus.2) (r := .ok ()) ([] : List (Txn ER EW)) (fun t ht => nomatch ht) (by simp)
      (by simp [isImage])
    rwa [List.append_nil] at this
  · intro v
    have := callOutcome_reads (P := env.mode = .checked) (Q := isImage (Op.setReflectedTemperature v) = true) (addr := d.addr)
      (c := d.calib) (log := d.bus.2) (r := .ok ()) ([] : List (Txn ER EW)) (fun t ht => nomatch ht) (by simp) (by simp [isImage])
    rwa [List.append_nil] at this
  · intro sp dest
    have := imageWith_outcome env d sp dest h (fun d => toRawImage env.mode d sp dest)
      (fun d px ram e => toRawImage_no_err _ _ _ _ _ _ _) (fun _ _ _ _ => rfl)
      (fun px ram => toRawImage_panic _ _ _ _ _ _)
    have hsh : ((Op.generateRawImageSubpageTo sp dest).exec (recordedEnv env) d).2 =
      (Driver.generateRawImageSubpageTo (recordedEnv env) sp dest d).2.2 := by
      show (discardImage (Driver.generateRawImageSubpageTo (recordedEnv env) sp dest d)).2 = _
      unfold discardImage discard
      cases (Driver.generateRawImageSubpageTo (recordedEnv env) sp dest d).2.2 <;> rfl
    rw [hsh]
    exact hsplit this
  · intro sp dest
    have hsh : ((Op.generateImageSubpageTo sp dest).exec (recordedEnv env) d).2 =
      (Driver.generateImageSubpageTo (recordedEnv env) sp dest d).2.2 := by
      show (discardImage (Driver.generateImageSubpageTo (recordedEnv env) sp dest d)).2 = _
      unfold discardImage discard
      cases (Driver.generateImageSubpageTo (recordedEnv env) sp dest d).2.2 <;> rfl
    rw [hsh]
    exact hsplit (himg sp dest)
  · intro dest
    have hsh : ((Op.generateImageTo dest).exec (recordedEnv env) d).2 =
      (Driver.generateImageTo (recordedEnv env) dest d).2.2 := by
      show (discardImage (Driver.generateImageTo (recordedEnv env) dest d)).2 = _
      unfold discardImage discard
      cases (Driver.generateImageTo (recordedEnv env) dest d).2.2 <;> rfl
    rw [hsh]
    show CallOutcome _ _ _ _ _ (Driver.generateImageTo (recordedEnv env) dest d).1.bus.2 _
    rw [generateImageTo_eq, hb, regRead_recorded]
    generalize regRead env.bus d.bus.1 d.addr 0x8000#16 = q
    obtain ⟨s1, e | w⟩ := q
    · refine ⟨_, rfl, reports_one d.addr 0x8000#16 (.error e), (fun h => nomatch h), ?_⟩
      rintro ⟨_, _, hs, _⟩
      have := hs _ (List.mem_singleton_self _)
      cases this
    · simp only
      have hsup : Supported (recordedEnv env)
          { d with bus := (s1, d.bus.2 ++ [Txn.readReg d.addr 0x8000#16 (.ok w)]) } := ⟨h.1, h.2, h.3⟩
      have := imageWith_outcome env { d with bus := (s1, d.bus.2 ++ [Txn.readReg d.addr 0x8000#16 (.ok w)]) }
        (if w.getLsbD 0 then .one else .zero) dest hsup
        (fun d => toTemperatures env.mode d (if w.getLsbD 0 then .one else .zero) dest)
        (fun d px ram e => toTemperatures_no_err _ _ _ _ _ _ _) (fun _ _ _ _ => rfl)
        (fun px ram => toTemperatures_panic _ _ _ _ _ _ hk)
      exact hsplit (callOutcome_status h this)
  · intro dest
    show CallOutcome _ _ _ _ _ (discardImage (Driver.generateImageIfReady (recordedEnv env) dest d)).1.bus.2
      (discardImage (Driver.generateImageIfReady (recordedEnv env) dest d)).2
    rw [ifReady_eq, hb, regRead_recorded]
    generalize regRead env.bus d.bus.1 d.addr 0x8000#16 = q
    obtain ⟨s1, e | w⟩ := q
    · refine ⟨_, rfl, reports_one d.addr 0x8000#16 (.error e), (fun h => nomatch h), ?_⟩
      rintro ⟨_, _, hs, _⟩
      have := hs _ (List.mem_singleton_self _)
      cases this
    · simp only
      by_cases h3 : w.getLsbD 3 = true
      · rw [if_pos h3]
        have hsup : Supported (recordedEnv env)
            { d with bus := (s1, d.bus.2 ++ [Txn.readReg d.addr 0x8000#16 (.ok w)]) } := ⟨h.1, h.2, h.3⟩
        have := callOutcome_status h (imageWith_outcome env
          { d with bus := (s1, d.bus.2 ++ [Txn.readReg d.addr 0x8000#16 (.ok w)]) }
          (if w.getLsbD 0 then .one else .zero) dest hsup
          (fun d => toTemperatures env.mode d (if w.getLsbD 0 then .one else .zero) dest)
          (fun d px ram e => toTemperatures_no_err _ _ _ _ _ _ _) (fun _ _ _ _ => rfl)
          (fun px ram => toTemperatures_panic _ _ _ _ _ _ hk))
        rw [imageSubpage_eq]
        have hm : (recordedEnv env).mode = env.mode := rfl
        rw [hm]
        generalize imageWith (recordedEnv env) (if w.getLsbD 0 then .one else .zero) dest
          { d with bus := (s1, d.bus.2 ++ [Txn.readReg d.addr 0x8000#16 (.ok w)]) }
          (fun d => toTemperatures env.mode d (if w.getLsbD 0 then .one else .zero) dest) = q at this ⊢
        obtain ⟨d1, dest1, r⟩ := q
        cases r with
        | err e => exact hsplit this
        | panic => exact hsplit this
        | ok a =>
          simp only [regWrite_recorded] at this ⊢
          obtain ⟨ts, t1, t2, t3⟩ := this
          rw [t1]
          generalize (regWrite env.bus d1.bus.1 d1.addr 0x8000#16 (StatusReg.resetNewData ⟨w⟩).raw) = q
          obtain ⟨s2, we⟩ := q
          refine ⟨ts ++ [Txn.writeReg d1.addr 0x8000#16 (StatusReg.resetNewData ⟨w⟩).raw we],
            by rw [← List.append_assoc]; rfl, ?_, ?_⟩
          · cases we with
            | none =>
              intro t ht
              rcases List.mem_append.1 ht with ht | ht
              · exact t2 t ht
              · rw [List.mem_singleton] at ht; subst ht; rfl
            | some e => exact ⟨ts, _, rfl, t2, rfl⟩
          · constructor
            · intro hx; cases we <;> cases hx
            · rintro ⟨hc, _, hs, w', hw', hov⟩
              rcases List.mem_append.1 hw' with hw' | hw'
              · exact absurd (t3.2 ⟨hc, trivial, t2, w', hw', hov⟩) (by simp)
              · rw [List.mem_singleton] at hw'; cases hw'
      · rw [if_neg h3]
        refine ⟨_, rfl, reports_one d.addr 0x8000#16 (.ok w), (fun h => nomatch h), ?_⟩
        rintro ⟨_, _, _, w', hw', _⟩
        rw [List.mem_singleton] at hw'
        exact absurd (readReg_inj hw').1 (not_voltage h _ (by decide))
  · intro fuel
    show CallOutcome _ _ _ _ _ (discard (Driver.synchronize (recordedEnv env) fuel d)).1.bus.2
      (discard (Driver.synchronize (recordedEnv env) fuel d)).2
    unfold discard
    obtain ⟨s', ts, r, h1, ⟨e, h2, h3⟩ | ⟨w, w', we, polls, h2, _, h4⟩⟩ :=
      C48_synchronize_waits_for_fresh_data env fuel d
    · rw [h1, h2, h3]
      exact callOutcome_reads _ (reports_one d.addr 0x8000#16 (.error e)) (by simp) (by simp [isImage])
    · rw [h1, h2]
      rcases h4 with ⟨e, rfl, rfl, rfl⟩ | ⟨rfl, stale, _, h6⟩
      · refine callOutcome_reads _ ?_ (by simp) (by simp [isImage])
        exact reports_rmw (ER := ER) d.addr 0x8000#16 w w' (some e) [] (fun t ht => nomatch ht)
      · have hst : ∀ t ∈ Txn.readReg d.addr 0x8000#16 (.ok w) :: Txn.writeReg d.addr 0x8000#16 w' none ::
            stale.map (fun w => Txn.readReg (ER := ER) (EW := EW) d.addr 0x8000#16 (.ok w)), t.succeeded = true := by
          intro t ht
          simp only [List.mem_cons, List.mem_map] at ht
          rcases ht with rfl | rfl | ⟨w, _, rfl⟩ <;> rfl
        rcases h6 with ⟨w1, _, rfl, _, h7⟩ | ⟨e, rfl, _, h7⟩ | ⟨rfl, _, h7⟩
        · rw [h7]
          refine callOutcome_reads _ ?_ (by simp) (by simp [isImage])
          intro t ht
          rw [← List.cons_append, ← List.cons_append] at ht
          rcases List.mem_append.1 ht with ht | ht
          · exact hst t ht
          · rw [List.mem_singleton] at ht; subst ht; rfl
        · rw [h7]
          refine callOutcome_reads _ ?_ (by simp) (by simp [isImage])
          exact ⟨_, .readReg d.addr 0x8000#16 (.error e), by simp only [List.cons_append], hst, rfl⟩
        · rw [h7]
          exact callOutcome_reads _ hst (by simp) (by simp [isImage])

/-- **C64.** On any bus, after any history: an error returned by a call is the error of its last transaction, and
all earlier ones succeeded; when no error is returned every transaction of the call succeeded. So every bus error
is reported, none is invented (in particular no calibration or decoding error), and nothing is sent after a
failure. -/
theorem C64_errors_are_bus_errors (env : Env σ ER EW) (d : Driver F (σ × List (Txn ER EW)))
    (h : Supported (recordedEnv env) d) (hk : d.calib.cam.basicRange < d.calib.kSTo.length)
    (history : List (Op F)) (op : Op F) :
    ∃ ts, (runOps (recordedEnv env) (history ++ [op]) d).bus.2 = (runOps (recordedEnv env) history d).bus.2 ++ ts ∧
      match (op.exec (recordedEnv env) (runOps (recordedEnv env) history d)).2 with
      | .err e => ∃ init last, ts = init ++ [last] ∧ (∀ t ∈ init, t.succeeded = true) ∧ last.error = some e
      | _ => ∀ t ∈ ts, t.succeeded = true := by
  obtain ⟨hs, ha, hc⟩ := runOps_supported h history
  obtain ⟨ts, h1, h2, _⟩ := call_outcome env _ hs (by rw [hc]; exact hk) op
  refine ⟨ts, ?_, ?_⟩
  · rw [← h1]
    unfold runOps
    rw [List.foldl_append]
    rfl
  · revert h2
    cases (op.exec (recordedEnv env) (runOps (recordedEnv env) history d)).2 <;> exact id

theorem new_calib {C : Type} {fromData : List Byte → Res LibErr C} {toCalib : C → Calib F} {b : Bus σ ER EW} {n : Nat}
    {s s' : σ} {addr : Byte} {d : Driver F σ} (h : Driver.new fromData toCalib b n s addr = (s', .ok d)) :
    ∃ bytes c, fromData bytes = .ok c ∧ d.calib = toCalib c := by
  unfold Driver.new calibFromI2c at h
  generalize b.read s addr (toBe 0x2400#16) (List.replicate ((0x273F - 0x2400 + 1) * 2) 0#8) = q at h
  obtain ⟨s1, bytes | e | _⟩ := q
  · simp only at h
    cases hc : fromData bytes with
    | err e => rw [hc] at h; simp [Res.mapErr] at h
    | panic => rw [hc] at h; simp [Res.mapErr] at h
    | ok c =>
      rw [hc] at h
      refine ⟨bytes, c, hc, ?_⟩
      simp only [Res.mapErr] at h
      unfold Driver.newWithCalibration at h
      generalize readControl b s1 addr = q at h
      obtain ⟨s2, control | e | _⟩ := q
      · simp only [Prod.mk.injEq] at h
        obtain ⟨_, h⟩ := h
        cases hr : control.resolution (ε := Err ER EW) with
        | err e => rw [hr] at h; cases h
        | panic => rw [hr] at h; cases h
        | ok r =>
          cases hp : control.accessPattern (ε := Err ER EW) with
          | err e => rw [hr, hp] at h; cases h
          | panic => rw [hr, hp] at h; cases h
          | ok p =>
            rw [hr, hp] at h
            have := Res.ok.inj h
            rw [← this]
      · simp at h
      · simp at h
  · simp at h
  · simp at h

/-- The crate's constructors make drivers with complete calibrations. -/
theorem constructed_complete {m : Mode} {b : Bus σ ER EW} {s s' : σ} {addr : Byte} {d : Driver F σ}
    (h : Driver.new640 m b s addr = (s', .ok d) ∨ Driver.new641 m b s addr = (s', .ok d)) :
    Complete d.calib d.calib.cam.numPixels := by
  rcases h with h | h
  · obtain ⟨bytes, c, h1, h2⟩ := new_calib h
    obtain ⟨h3, h4, _⟩ := C28_complete_640 m bytes c h1
    rw [h2, h3]; exact h4
  · obtain ⟨bytes, c, h1, h2⟩ := new_calib h
    obtain ⟨h3, h4, _⟩ := C28_complete_641 m bytes c h1
    rw [h2, h3]; exact h4

/-- **C63.** For a driver made by one of the crate's constructors, on any bus and after any history: a call panics
exactly when the crate was built with overflow checks, the call makes an image, all its transactions succeeded and
one of them received a supply voltage reading that differs from the calibration's reference by more than a 16-bit
number. -/
theorem C63_panics_only_on_voltage_overflow (m : Mode) (b : Bus σ ER EW) (s : σ × List (Txn ER EW)) (addr : Byte)
    (env : Env σ ER EW) (d : Driver F (σ × List (Txn ER EW))) (h : Constructed m b s addr env d)
    (history : List (Op F)) (op : Op F) :
    ∃ ts, (runOps (recordedEnv env) (history ++ [op]) d).bus.2 = (runOps (recordedEnv env) history d).bus.2 ++ ts ∧
      ((op.exec (recordedEnv env) (runOps (recordedEnv env) history d)).2 = .panic ↔
        m = .checked ∧ isImage op = true ∧ (∀ t ∈ ts, t.succeeded = true) ∧ VoltageOverflow addr d.calib ts) := by
  obtain ⟨hs, ha, _⟩ := constructed_reads h
  have hm : env.mode = m := by rcases h with ⟨rfl, _⟩ | ⟨rfl, _⟩ <;> rfl
  have hk : Complete d.calib d.calib.cam.numPixels := by
    rcases h with ⟨_, s', h⟩ | ⟨_, s', h⟩
    · exact constructed_complete (Or.inl h)
    · exact constructed_complete (Or.inr h)
  obtain ⟨hs1, ha1, hc⟩ := runOps_supported hs history
  obtain ⟨ts, h1, _, h2⟩ := call_outcome env _ hs1 (by rw [hc]; exact hk.kSTo) op
  refine ⟨ts, ?_, ?_⟩
  · rw [← h1]
    unfold runOps
    rw [List.foldl_append]
    rfl
  · rw [h2, hm, hc, ha1, ha]

theorem newWithCalibration_no_panic (b : Bus σ ER EW) (n : Nat) (s : σ) (addr : Byte) (c : Calib F) :
    (Driver.newWithCalibration b n s addr c).2 ≠ .panic := by
  unfold Driver.newWithCalibration
  rw [readControl_eq]
  cases (regRead b s addr 0x800D#16).2 with
  | error e => simp
  | ok w => simp [resolution_val, accessPattern_val]

theorem new_panic {C : Type} (fromData : List Byte → Res LibErr C) (toCalib : C → Calib F) (b : Bus σ ER EW)
    (n : Nat) (s : σ) (addr : Byte) (h : ∀ bytes, bytes.length = 1664 → fromData bytes ≠ .panic) :
    (Driver.new fromData toCalib b n s addr).2 ≠ .panic := by
  unfold Driver.new calibFromI2c Bus.read
  have hl := b.length_eq s addr (toBe 0x2400#16) (List.replicate ((0x273F - 0x2400 + 1) * 2) 0#8)
  rw [List.length_replicate] at hl
  generalize b.writeRead s addr (toBe 0x2400#16) (List.replicate ((0x273F - 0x2400 + 1) * 2) 0#8) = q at hl ⊢
  obtain ⟨s1, bytes, _ | e⟩ := q
  · simp only
    cases hf : fromData bytes with
    | panic => exact absurd hf (h bytes hl)
    | err e => simp [Res.mapErr]
    | ok c => exact newWithCalibration_no_panic (F := F) b n s1 addr (toCalib c)
  · simp

/-- **C63 (release builds).** Without overflow checks nothing panics: neither construction, on any bus, nor any
call on the driver constructed, after any history. -/
theorem C63_release_never_panics (b : Bus σ ER EW) (s : σ) (addr : Byte) :
    (Driver.new640 (F := F) .wrapping b s addr).2 ≠ .panic ∧
    (Driver.new641 (F := F) .wrapping b s addr).2 ≠ .panic ∧
    (∀ s' (d : Driver F σ), Driver.new640 .wrapping b s addr = (s', .ok d) → ∀ (history : List (Op F)) (op : Op F),
      (op.exec ⟨.wrapping, 24, b⟩ (runOps ⟨.wrapping, 24, b⟩ history d)).2 ≠ .panic) ∧
    (∀ s' (d : Driver F σ), Driver.new641 .wrapping b s addr = (s', .ok d) → ∀ (history : List (Op F)) (op : Op F),
      (op.exec ⟨.wrapping, 12, b⟩ (runOps ⟨.wrapping, 12, b⟩ history d)).2 ≠ .panic) := by
  have key : ∀ (n : Nat) (d : Driver F σ), Supported ⟨.wrapping, n, b⟩ d →
      Complete d.calib d.calib.cam.numPixels → ∀ (history : List (Op F)) (op : Op F),
      (op.exec ⟨.wrapping, n, b⟩ (runOps ⟨.wrapping, n, b⟩ history d)).2 ≠ .panic := by
    intro n d hs hk history op hp
    obtain ⟨hs1, _, hc⟩ := runOps_supported hs history
    have hk1 : (runOps ⟨.wrapping, n, b⟩ history d).calib.cam.basicRange <
        (runOps ⟨.wrapping, n, b⟩ history d).calib.kSTo.length := by rw [hc]; exact hk.kSTo
    generalize runOps ⟨.wrapping, n, b⟩ history d = d1 at hs1 hk1 hp
    let d2 : Driver F (σ × List (Txn ER EW)) := { d1 with bus := (d1.bus, []) }
    have hd2 : forget d2 = d1 := rfl
    have hs2 : Supported (recordedEnv ⟨.wrapping, n, b⟩) d2 := ⟨hs1.1, hs1.2, hs1.3⟩
    obtain ⟨ts, _, _, h3⟩ := call_outcome ⟨.wrapping, n, b⟩ d2 hs2 hk1 op
    have ht := congrArg Prod.snd (C60_recorder_transparent ⟨.wrapping, n, b⟩ op d2)
    rw [hd2] at ht
    simp only at ht
    rw [hp] at ht
    have := (h3.1 ht).1
    cases this
  refine ⟨new_panic _ _ _ _ _ _ fun bytes hl hp => ?_, new_panic _ _ _ _ _ _ fun bytes hl hp => ?_, ?_, ?_⟩
  · obtain ⟨c, hc⟩ := ((C24_dump_length (F := F) .wrapping bytes).2.2 (by omega)).2.1
    rw [hc] at hp; cases hp
  · by_cases hg : ∀ a ∈ Ee641.examined bytes.length, ¬ Ee641.Uncorrectable (eepromWord bytes a)
    · obtain ⟨D, hD⟩ := holds_of_correctable hg
      obtain ⟨c, hc⟩ := ((C32_dump_length (F := F) .wrapping bytes).1 D hD).2.2.1 (by omega) (Or.inl rfl)
      rw [hc] at hp; cases hp
    · simp only [not_forall, not_not] at hg
      obtain ⟨a, ha, hu⟩ := hg
      obtain ⟨before, b, after, D, h1, h2, h3⟩ := ((C34_uncorrectable_reported (F := F) .wrapping bytes).2.1 a ha hu).2
      rw [((C34_uncorrectable_reported (F := F) .wrapping bytes).1 before b after D h1 h2 h3).1 (Or.inl rfl)] at hp
      cases hp
  · intro s' d h history op
    exact key 24 d ((C39_constructed_drivers_supported _ b s addr).1 s' d h).1 (constructed_complete (Or.inl h)) history op
  · intro s' d h history op
    exact key 12 d ((C39_constructed_drivers_supported _ b s addr).2 s' d h).1 (constructed_complete (Or.inr h)) history op

/-- **C44 (every ready frame is converted).** After any history on a driver that was constructed: if all transactions of
a `generate_image_if_ready` call succeed and the status word it receives announces new data, the call returns `Ok(true)`,
unless overflow checks are on and the supply voltage received differs from the calibration's reference by more than a
16-bit number, in which case it panics. -/
theorem C44_ready_frame_always_converted (m : Mode) (b : Bus σ ER EW) (s : σ × List (Txn ER EW)) (addr : Byte)
    (env : Env σ ER EW) (d : Driver F (σ × List (Txn ER EW))) (h : Constructed m b s addr env d)
    (history : List (Op F)) (dest : List F) :
    let d1 := runOps (recordedEnv env) history d
    ∃ (ts : List (Txn ER EW)) (d' : Driver F (σ × List (Txn ER EW))) (dest' : List F) (r : Res (Err ER EW) Bool),
      Driver.generateImageIfReady (recordedEnv env) dest d1 = (d', dest', r) ∧ d'.bus.2 = d1.bus.2 ++ ts ∧
      ((∀ t ∈ ts, t.succeeded = true) →
        (∃ w, ts.head? = some (.readReg addr 0x8000#16 (.ok w)) ∧ w.getLsbD 3 = true) →
        (r = .ok true ∧ ¬ (m = .checked ∧ VoltageOverflow addr d.calib ts)) ∨
        (r = .panic ∧ m = .checked ∧ VoltageOverflow addr d.calib ts)) := by
  intro d1
  obtain ⟨hs, ha, _⟩ := constructed_reads h
  obtain ⟨hs1, ha1, _⟩ := runOps_supported hs history
  obtain ⟨ts, d', dest', r, h1, h2, h3, _⟩ := C44_ready_frame_converted_then_acknowledged env d1 dest hs1
  obtain ⟨ts2, h4, h5⟩ := C63_panics_only_on_voltage_overflow m b s addr env d h history (.generateImageIfReady dest)
  have he : (Op.generateImageIfReady dest).exec (recordedEnv env) d1 = discardImage (d', dest', r) := by
    rw [← h1]; rfl
  have h6 : (runOps (recordedEnv env) (history ++ [.generateImageIfReady dest]) d).bus.2 = d'.bus.2 := by
    unfold runOps
    rw [List.foldl_append]
    exact congrArg (fun x => x.1.bus.2) he
  rw [h6, h2] at h4
  have h7 := List.append_cancel_left h4
  subst h7
  refine ⟨ts, d', dest', r, h1, h2, fun hok hw => ?_⟩
  have hp : r = .panic ↔ (m = .checked ∧ isImage (Op.generateImageIfReady dest) = true ∧
      (∀ t ∈ ts, t.succeeded = true) ∧ VoltageOverflow addr d.calib ts) := by
    rw [← h5, show runOps (recordedEnv env) history d = d1 from rfl, he]
    cases r <;> simp [discardImage, discard]
  by_cases hr : r = .panic
  · have := hp.1 hr
    exact Or.inr ⟨hr, this.1, this.2.2.2⟩
  · refine Or.inl ⟨h3 hok ?_ hr, fun hv => hr (hp.2 ⟨hv.1, rfl, hok, hv.2⟩)⟩
    rw [ha1, ha]
    exact hw

end Mlx.Props
