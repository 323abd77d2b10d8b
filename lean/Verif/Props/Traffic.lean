import Verif.Spec.Traffic
import Verif.Props.Image
import Verif.Props.Failures
import Verif.Props.History
import Verif.Props.Shared
/-
How much a call uses the bus: C85.
-/
set_option linter.unusedSectionVars false
set_option autoImplicit false
namespace Mlx.Props
open Mlx Mlx.Spec Mlx.Proofs F32Ops
variable {F σ ER EW : Type} [F32Ops F]

theorem traffic_append (ts us : List (Txn ER EW)) : traffic (ts ++ us) = traffic ts + traffic us := by
  unfold traffic
  rw [List.map_append, List.sum_append]

theorem traffic_cons (t : Txn ER EW) (ts : List (Txn ER EW)) : traffic (t :: ts) = t.bytes + traffic ts := by
  unfold traffic
  rw [List.map_cons, List.sum_cons]

theorem readReg_bytes (a : Byte) (reg : Word) (r : Except ER Word) : (Txn.readReg a reg r : Txn ER EW).bytes = 4 := rfl

theorem writeReg_bytes (a : Byte) (reg w : Word) (e : Option EW) : (Txn.writeReg a reg w e : Txn ER EW).bytes = 4 := rfl

/-- What a plan costs. -/
def planCost (plan : List (Word × Nat)) : Cost := ⟨plan.length, (plan.map fun p => 2 + p.2).sum⟩

theorem follows_cost {addr : Byte} {plan : List (Word × Nat)} {ts : List (Txn ER EW)} {r : Option (Err ER EW)}
    (h : Follows addr plan ts r) :
    ts.length ≤ (planCost plan).transactions ∧ traffic ts ≤ (planCost plan).bytes ∧
    (r = none → ts.length = (planCost plan).transactions ∧ traffic ts = (planCost plan).bytes) := by
  induction h with
  | done => exact ⟨Nat.le_refl _, Nat.le_refl _, fun _ => ⟨rfl, rfl⟩⟩
  | @next a n plan ts bytes r hn hf ih =>
    obtain ⟨h1, h2, h3⟩ := ih
    have hb : ∀ p : List (Word × Nat), (planCost ((a, n) :: p)).bytes = 2 + n + (planCost p).bytes := fun _ => rfl
    have ht : ∀ p : List (Word × Nat), (planCost ((a, n) :: p)).transactions = (planCost p).transactions + 1 := fun _ => rfl
    have hx : (Txn.read addr (toBe a) n (.ok bytes) : Txn ER EW).bytes = 2 + n := rfl
    rw [traffic_cons, hx, hb, ht, List.length_cons]
    refine ⟨by omega, by omega, fun hr => ?_⟩
    have := h3 hr
    omega
  | @failed a n plan e =>
    have hb : ∀ p : List (Word × Nat), (planCost ((a, n) :: p)).bytes = 2 + n + (planCost p).bytes := fun _ => rfl
    have ht : ∀ p : List (Word × Nat), (planCost ((a, n) :: p)).transactions = (planCost p).transactions + 1 := fun _ => rfl
    have hx : (Txn.read addr (toBe a) n (.error e) : Txn ER EW).bytes = 2 + n := rfl
    rw [traffic_cons, hx, hb, ht]
    refine ⟨?_, ?_, fun hr => (nomatch hr)⟩
    · simp
    · unfold traffic; simp

/-- The plan of a frame costs what the specification says. -/
theorem plan_cost {env : Env σ ER EW} {d : Driver F σ} (h : Supported env d) (sp : Subpage) {rs : List PixelRange}
    (hr : d.calib.cam.collectRanges env.mode sp d.accessPattern env.height = .ok rs) :
    planCost (ramPlan d.calib.cam rs sp) = frameCost env.height d.accessPattern := by
  have key : ∀ m sp ap (rs : List PixelRange), (Mlx90640.cam.collectRanges m sp ap 24 = .ok rs →
        planCost (ramPlan Mlx90640.cam rs sp) = frameCost 24 ap) ∧
      (Mlx90641.cam.collectRanges m sp ap 12 = .ok rs → planCost (ramPlan Mlx90641.cam rs sp) = frameCost 12 ap) := by
    intro m sp ap rs
    have k1 : ∃ rs, Mlx90640.cam.collectRanges m sp ap 24 = .ok rs ∧ planCost (ramPlan Mlx90640.cam rs sp) = frameCost 24 ap := by
      cases m <;> cases sp <;> cases ap <;> exact ⟨_, rfl, by decide +kernel⟩
    have k2 : ∃ rs, Mlx90641.cam.collectRanges m sp ap 12 = .ok rs ∧ planCost (ramPlan Mlx90641.cam rs sp) = frameCost 12 ap := by
      cases m <;> cases sp <;> cases ap <;> exact ⟨_, rfl, by decide +kernel⟩
    refine ⟨fun h => ?_, fun h => ?_⟩
    · obtain ⟨rs', h1, h2⟩ := k1
      rw [h1] at h
      rw [← Res.ok.inj h]
      exact h2
    · obtain ⟨rs', h1, h2⟩ := k2
      rw [h1] at h
      rw [← Res.ok.inj h]
      exact h2
  rcases h.cam with hc | hc
  · have hh : env.height = 24 := by rw [h.height, hc]; rfl
    rw [hc, hh] at hr
    rw [hc, hh]
    exact (key _ _ _ _).1 hr
  · have hh : env.height = 12 := by rw [h.height, hc]; rfl
    rw [hc, hh] at hr
    rw [hc, hh]
    exact (key _ _ _ _).2 hr

variable {env : Env σ ER EW} {d : Driver F (σ × List (Txn ER EW))}

/-- A frame read and converted. -/
theorem image_cost (h : Supported (recordedEnv env) d) (sp : Subpage) (dest : List F)
    (conv : Driver F (σ × List (Txn ER EW)) → List Byte → RamData → Res (Err ER EW) (F × List F))
    (hne : ∀ d px ram e, conv d px ram ≠ .err e)
    (hconv : ∀ bus px px' ram, conv { d with bus := bus, pixelBuf := px' } px ram = conv d px ram) :
    Spends d.bus.2 (imageWith (recordedEnv env) sp dest d conv).1.bus.2 (frameCost env.height d.accessPattern) ∧
    ((∀ e, (imageWith (recordedEnv env) sp dest d conv).2.2 ≠ .err e) →
      SpendsAll d.bus.2 (imageWith (recordedEnv env) sp dest d conv).1.bus.2 (frameCost env.height d.accessPattern)) := by
  obtain ⟨rs, ts, s', px, hr, _, hcase⟩ := imageWith_cases env d sp dest h conv hne hconv
  have hp : planCost (ramPlan d.calib.cam rs sp) = frameCost env.height d.accessPattern :=
    plan_cost (env := recordedEnv env) h sp hr
  rw [← hp]
  rcases hcase with ⟨e, hf, he⟩ | ⟨ram, hf, _, ⟨tA, dest', _, he⟩ | ⟨_, he⟩⟩
  · obtain ⟨h1, h2, _⟩ := follows_cost hf
    rw [he]
    exact ⟨⟨ts, rfl, h1, h2⟩, fun hno => absurd rfl (hno e)⟩
  · obtain ⟨h1, h2, h3⟩ := follows_cost hf
    rw [he]
    exact ⟨⟨ts, rfl, h1, h2⟩, fun _ => ⟨ts, rfl, (h3 rfl).1, (h3 rfl).2⟩⟩
  · obtain ⟨h1, h2, h3⟩ := follows_cost hf
    rw [he]
    exact ⟨⟨ts, rfl, h1, h2⟩, fun _ => ⟨ts, rfl, (h3 rfl).1, (h3 rfl).2⟩⟩

theorem subpage_cost (h : Supported (recordedEnv env) d) (sp : Subpage) (dest : List F) :
    Spends d.bus.2 (Driver.generateImageSubpageTo (recordedEnv env) sp dest d).1.bus.2 (frameCost env.height d.accessPattern) ∧
    ((∀ e, (Driver.generateImageSubpageTo (recordedEnv env) sp dest d).2.2 ≠ .err e) →
      SpendsAll d.bus.2 (Driver.generateImageSubpageTo (recordedEnv env) sp dest d).1.bus.2
        (frameCost env.height d.accessPattern)) := by
  rw [imageSubpage_eq]
  exact image_cost h sp dest _ (fun d px ram e => toTemperatures_no_err _ _ _ _ _ _ _) (fun _ _ _ _ => rfl)

theorem raw_cost (h : Supported (recordedEnv env) d) (sp : Subpage) (dest : List F) :
    Spends d.bus.2 (Driver.generateRawImageSubpageTo (recordedEnv env) sp dest d).1.bus.2 (frameCost env.height d.accessPattern) ∧
    ((∀ e, (Driver.generateRawImageSubpageTo (recordedEnv env) sp dest d).2.2 ≠ .err e) →
      SpendsAll d.bus.2 (Driver.generateRawImageSubpageTo (recordedEnv env) sp dest d).1.bus.2
        (frameCost env.height d.accessPattern)) := by
  rw [rawImageSubpage_eq]
  exact image_cost h sp dest _ (fun d px ram e => toRawImage_no_err _ _ _ _ _ _ _) (fun _ _ _ _ => rfl)

/-- One more register read before. -/
theorem _root_.Mlx.Spec.Spends.after_read {log log' : List (Txn ER EW)} {a : Byte} {reg : Word} {r : Except ER Word} {c : Cost}
    (h : Spends (log ++ [.readReg a reg r]) log' c) : Spends log log' ⟨c.transactions + 1, c.bytes + 4⟩ := by
  obtain ⟨ts, h1, h2, h3⟩ := h
  refine ⟨.readReg a reg r :: ts, by rw [h1, List.append_assoc]; rfl, by simp only [List.length_cons]; omega, ?_⟩
  rw [traffic_cons, readReg_bytes]
  show _ ≤ _ + 4
  omega

theorem _root_.Mlx.Spec.SpendsAll.after_read {log log' : List (Txn ER EW)} {a : Byte} {reg : Word} {r : Except ER Word} {c : Cost}
    (h : SpendsAll (log ++ [.readReg a reg r]) log' c) : SpendsAll log log' ⟨c.transactions + 1, c.bytes + 4⟩ := by
  obtain ⟨ts, h1, h2, h3⟩ := h
  refine ⟨.readReg a reg r :: ts, by rw [h1, List.append_assoc]; rfl, by simp only [List.length_cons]; omega, ?_⟩
  rw [traffic_cons, readReg_bytes]
  show _ = _ + 4
  omega

theorem _root_.Mlx.Spec.Spends.one_read {log : List (Txn ER EW)} {a : Byte} {reg : Word} {r : Except ER Word} {c : Cost}
    (h1 : 1 ≤ c.transactions) (h2 : 4 ≤ c.bytes) : Spends log (log ++ [.readReg a reg r]) c :=
  ⟨[.readReg a reg r], rfl, h1, h2⟩

theorem _root_.Mlx.Spec.Spends.and_write {log log' : List (Txn ER EW)} {a : Byte} {reg w : Word} {e : Option EW} {c : Cost}
    (h : Spends log log' c) : Spends log (log' ++ [.writeReg a reg w e]) ⟨c.transactions + 1, c.bytes + 4⟩ := by
  obtain ⟨ts, h1, h2, h3⟩ := h
  refine ⟨ts ++ [.writeReg a reg w e], by rw [h1, List.append_assoc], by simp only [List.length_append, List.length_singleton]; omega, ?_⟩
  rw [traffic_append]
  show _ + 4 ≤ _ + 4
  omega

theorem _root_.Mlx.Spec.SpendsAll.and_write {log log' : List (Txn ER EW)} {a : Byte} {reg w : Word} {e : Option EW} {c : Cost}
    (h : SpendsAll log log' c) : SpendsAll log (log' ++ [.writeReg a reg w e]) ⟨c.transactions + 1, c.bytes + 4⟩ := by
  obtain ⟨ts, h1, h2, h3⟩ := h
  refine ⟨ts ++ [.writeReg a reg w e], by rw [h1, List.append_assoc], by simp only [List.length_append, List.length_singleton]; omega, ?_⟩
  rw [traffic_append]
  show _ + 4 = _ + 4
  omega

theorem get_cost (f : CtrlField) (hf : f ≠ .stepMode) (d : Driver F (σ × List (Txn ER EW))) :
    Spends d.bus.2 (driverGet (recordedEnv env) f hf d).1.bus.2 registerRead := by
  have hb : (recordedEnv env).bus = recorded env.bus := rfl
  rw [driverGet_eq, hb, regRead_recorded]
  generalize regRead env.bus d.bus.1 d.addr 0x800D#16 = q
  obtain ⟨s, e | w⟩ := q
  · exact .one_read (Nat.le_refl _) (Nat.le_refl _)
  · exact .one_read (Nat.le_refl _) (Nat.le_refl _)

theorem set_cost (f : CtrlField) (hf : f ≠ .stepMode) (v : f.Val) (d : Driver F (σ × List (Txn ER EW))) :
    Spends d.bus.2 (driverSet (recordedEnv env) f hf v d).1.bus.2 registerUpdate := by
  have hb : (recordedEnv env).bus = recorded env.bus := rfl
  rw [driverSet_eq, hb, regRead_recorded]
  generalize regRead env.bus d.bus.1 d.addr 0x800D#16 = q
  obtain ⟨s, e | w⟩ := q
  · exact .one_read (by decide) (by decide)
  · simp only
    by_cases hc : f.code (f.valueIn w) = f.code v
    · rw [if_pos hc]
      exact .one_read (by decide) (by decide)
    · rw [if_neg hc, regWrite_recorded]
      exact (Spends.one_read (c := registerRead) (Nat.le_refl _) (Nat.le_refl _)).and_write

theorem poll_cost (fuel : Nat) (d : Driver F (σ × List (Txn ER EW))) :
    Spends d.bus.2 (Driver.pollStatus (recordedEnv env) fuel d).1.bus.2 ⟨fuel, 4 * fuel⟩ := by
  induction fuel generalizing d with
  | zero => exact ⟨[], (List.append_nil _).symm, Nat.le_refl _, Nat.le_refl _⟩
  | succ n ih =>
    unfold Driver.pollStatus
    have hb : (recordedEnv env).bus = recorded env.bus := rfl
    rw [dm_bind, statusRegister_eq, hb, regRead_recorded]
    generalize regRead env.bus d.bus.1 d.addr 0x8000#16 = q
    obtain ⟨s, e | w⟩ := q
    · exact .one_read (Nat.le_add_left ..) (by simp only; omega)
    · simp only
      split
      · exact .one_read (Nat.le_add_left ..) (by simp only; omega)
      · exact (ih { d with bus := (s, d.bus.2 ++ [Txn.readReg d.addr 0x8000#16 (.ok w)]) }).after_read

theorem call_cost (h : Supported (recordedEnv env) d) (op : Op F) :
    Spends d.bus.2 (op.exec (recordedEnv env) d).1.bus.2 (cost env.height d.accessPattern op) ∧
    (isImage op = true → (op.exec (recordedEnv env) d).2 = .ok () →
      SpendsAll d.bus.2 (op.exec (recordedEnv env) d).1.bus.2 (cost env.height d.accessPattern op) ∨
      (∃ dest d', op = .generateImageIfReady dest ∧
        Driver.generateImageIfReady (recordedEnv env) dest d = (d', dest, .ok false) ∧
        SpendsAll d.bus.2 d'.bus.2 registerRead)) := by
  have hb : (recordedEnv env).bus = recorded env.bus := rfl
  have nope : ∀ {P : Prop}, false = true → P := fun h => nomatch h
  have free : Spends d.bus.2 d.bus.2 ⟨0, 0⟩ := ⟨[], (List.append_nil _).symm, Nat.le_refl _, Nat.le_refl _⟩
  cases op with
  | subpagesEnabled => exact ⟨get_cost .useSubpages (by decide) d, nope⟩
  | dataHoldEnabled => exact ⟨get_cost .dataHold (by decide) d, nope⟩
  | subpageRepeat => exact ⟨get_cost .subpageRepeat (by decide) d, nope⟩
  | selectedSubpage => exact ⟨get_cost .subpage (by decide) d, nope⟩
  | frameRate => exact ⟨get_cost .frameRate (by decide) d, nope⟩
  | resolution => exact ⟨get_cost .resolution (by decide) d, nope⟩
  | accessPattern => exact ⟨get_cost .accessPattern (by decide) d, nope⟩
  | setUseSubpages v => exact ⟨set_cost .useSubpages (by decide) v d, nope⟩
  | setDataHold v => exact ⟨set_cost .dataHold (by decide) v d, nope⟩
  | setSubpageRepeat v => exact ⟨set_cost .subpageRepeat (by decide) v d, nope⟩
  | setSubpage v => exact ⟨set_cost .subpage (by decide) v d, nope⟩
  | setFrameRate v => exact ⟨set_cost .frameRate (by decide) v d, nope⟩
  | setResolution v => exact ⟨set_cost .resolution (by decide) v d, nope⟩
  | setAccessPattern v => exact ⟨set_cost .accessPattern (by decide) v d, nope⟩
  | overrideEmissivity v => exact ⟨free, nope⟩
  | useDefaultEmissivity => exact ⟨free, nope⟩
  | setReflectedTemperature v => exact ⟨free, nope⟩
  | lastMeasuredSubpage =>
    refine ⟨?_, nope⟩
    show Spends _ (Driver.lastMeasuredSubpage (recordedEnv env) d).1.bus.2 registerRead
    unfold Driver.lastMeasuredSubpage
    rw [dm_bind, statusRegister_eq, hb, regRead_recorded]
    generalize regRead env.bus d.bus.1 d.addr 0x8000#16 = q
    obtain ⟨s, e | w⟩ := q <;> exact .one_read (Nat.le_refl _) (Nat.le_refl _)
  | dataAvailable =>
    refine ⟨?_, nope⟩
    show Spends _ (Driver.dataAvailable (recordedEnv env) d).1.bus.2 registerRead
    unfold Driver.dataAvailable
    rw [dm_bind, statusRegister_eq, hb, regRead_recorded]
    generalize regRead env.bus d.bus.1 d.addr 0x8000#16 = q
    obtain ⟨s, e | w⟩ := q
    · exact .one_read (Nat.le_refl _) (Nat.le_refl _)
    · simp only [status_newData]
      cases w.getLsbD 3
      · exact .one_read (Nat.le_refl _) (Nat.le_refl _)
      · simp only [if_true]
        rw [dm_bind]
        simp only [DM.lift, status_subpage]
        exact .one_read (Nat.le_refl _) (Nat.le_refl _)
  | overwriteEnabled =>
    refine ⟨?_, nope⟩
    show Spends _ (Driver.overwriteEnabled (recordedEnv env) d).1.bus.2 registerRead
    unfold Driver.overwriteEnabled
    rw [dm_bind, statusRegister_eq, hb, regRead_recorded]
    generalize regRead env.bus d.bus.1 d.addr 0x8000#16 = q
    obtain ⟨s, e | w⟩ := q <;> exact .one_read (Nat.le_refl _) (Nat.le_refl _)
  | resetDataAvailable =>
    refine ⟨?_, nope⟩
    show Spends _ (Driver.resetDataAvailable (recordedEnv env) d).1.bus.2 registerUpdate
    rw [resetDataAvailable_eq, hb, regRead_recorded]
    generalize regRead env.bus d.bus.1 d.addr 0x8000#16 = q
    obtain ⟨s, e | w⟩ := q
    · exact .one_read (by decide) (by decide)
    · simp only
      rw [regWrite_recorded]
      exact (Spends.one_read (c := registerRead) (Nat.le_refl _) (Nat.le_refl _)).and_write
  | setOverwriteEnabled v =>
    refine ⟨?_, nope⟩
    show Spends _ (Driver.setOverwriteEnabled (recordedEnv env) v d).1.bus.2 registerUpdate
    rw [setOverwrite_eq, hb, regRead_recorded]
    generalize regRead env.bus d.bus.1 d.addr 0x8000#16 = q
    obtain ⟨s, e | w⟩ := q
    · exact .one_read (by decide) (by decide)
    · simp only
      split
      · exact .one_read (by decide) (by decide)
      · rw [regWrite_recorded]
        exact (Spends.one_read (c := registerRead) (Nat.le_refl _) (Nat.le_refl _)).and_write
  | synchronize fuel =>
    refine ⟨?_, nope⟩
    show Spends _ (Driver.synchronize (recordedEnv env) fuel d).1.bus.2 ⟨2 + fuel, 8 + 4 * fuel⟩
    rw [synchronize_eq, hb, regRead_recorded]
    generalize regRead env.bus d.bus.1 d.addr 0x8000#16 = q
    obtain ⟨s, e | w⟩ := q
    · exact .one_read (by simp only; omega) (by simp only; omega)
    · simp only
      rw [regWrite_recorded]
      have hw := (Spends.one_read (log := d.bus.2) (a := d.addr) (reg := 0x8000#16) (r := (.ok w : Except ER Word))
        (c := registerRead) (Nat.le_refl _) (Nat.le_refl _)).and_write (a := d.addr) (reg := 0x8000#16) (w := syncWord w)
        (e := (regWrite env.bus s d.addr 0x8000#16 (syncWord w)).2)
      generalize regWrite env.bus s d.addr 0x8000#16 (syncWord w) = q2 at hw ⊢
      obtain ⟨s2, _ | e⟩ := q2
      · simp only at hw ⊢
        have hp := poll_cost (env := env) fuel { d with bus := (s2,
          d.bus.2 ++ [Txn.readReg d.addr 0x8000#16 (.ok w)] ++ [Txn.writeReg d.addr 0x8000#16 (syncWord w) none]) }
        obtain ⟨ts, h1, h2, h3⟩ := hw
        obtain ⟨us, h4, h5, h6⟩ := hp
        simp only at h4
        refine ⟨ts ++ us, by rw [h4, h1, List.append_assoc], ?_, ?_⟩
        · rw [List.length_append]
          have : ts.length ≤ 2 := h2
          simp only at h5 ⊢
          omega
        · rw [traffic_append]
          have : traffic ts ≤ 8 := h3
          simp only at h6 ⊢
          omega
      · obtain ⟨ts, h1, h2, h3⟩ := hw
        have h2 : ts.length ≤ 2 := h2
        have h3 : traffic ts ≤ 8 := h3
        exact ⟨ts, h1, by simp only; omega, by simp only; omega⟩
  | generateRawImageSubpageTo sp dest =>
    obtain ⟨h1, h2⟩ := raw_cost h sp dest
    refine ⟨h1, fun _ ho => Or.inl (h2 fun e he => ?_)⟩
    have ho : (discardImage (Driver.generateRawImageSubpageTo (recordedEnv env) sp dest d)).2 = .ok () := ho
    revert ho he
    generalize Driver.generateRawImageSubpageTo (recordedEnv env) sp dest d = q
    obtain ⟨d', dest', r⟩ := q
    rintro rfl ho
    exact nomatch ho
  | generateImageSubpageTo sp dest =>
    obtain ⟨h1, h2⟩ := subpage_cost h sp dest
    refine ⟨h1, fun _ ho => Or.inl (h2 fun e he => ?_)⟩
    have ho : (discardImage (Driver.generateImageSubpageTo (recordedEnv env) sp dest d)).2 = .ok () := ho
    revert ho he
    generalize Driver.generateImageSubpageTo (recordedEnv env) sp dest d = q
    obtain ⟨d', dest', r⟩ := q
    rintro rfl ho
    exact nomatch ho
  | generateImageTo dest =>
    show Spends _ (Driver.generateImageTo (recordedEnv env) dest d).1.bus.2 _ ∧ (_ →
      (discardImage (Driver.generateImageTo (recordedEnv env) dest d)).2 = _ →
      SpendsAll _ (Driver.generateImageTo (recordedEnv env) dest d).1.bus.2 _ ∨ _)
    rw [generateImageTo_eq, hb, regRead_recorded]
    generalize regRead env.bus d.bus.1 d.addr 0x8000#16 = q
    obtain ⟨s, e | w⟩ := q
    · exact ⟨.one_read (Nat.le_add_left ..) (Nat.le_add_left ..), fun _ ho => (nomatch ho)⟩
    · simp only
      have hs' : Supported (recordedEnv env) { d with bus := (s, d.bus.2 ++ [Txn.readReg d.addr 0x8000#16 (.ok w)]) } :=
        ⟨h.1, h.2, h.3⟩
      obtain ⟨h1, h2⟩ := subpage_cost hs' (if w.getLsbD 0 then .one else .zero) dest
      refine ⟨h1.after_read, fun _ ho => Or.inl (h2 fun e he => ?_).after_read⟩
      revert ho he
      generalize Driver.generateImageSubpageTo (recordedEnv env) _ dest
        { d with bus := (s, d.bus.2 ++ [Txn.readReg d.addr 0x8000#16 (.ok w)]) } = q
      obtain ⟨d', dest', r⟩ := q
      rintro ho rfl
      exact nomatch ho
  | generateImageIfReady dest =>
    have goal : ∀ out, Driver.generateImageIfReady (recordedEnv env) dest d = out →
        Spends d.bus.2 out.1.bus.2 ⟨(frameCost env.height d.accessPattern).transactions + 2,
          (frameCost env.height d.accessPattern).bytes + 8⟩ ∧
        (out.2.2 = .ok true → SpendsAll d.bus.2 out.1.bus.2 ⟨(frameCost env.height d.accessPattern).transactions + 2,
          (frameCost env.height d.accessPattern).bytes + 8⟩) ∧
        (out.2.2 = .ok false → out.2.1 = dest ∧ SpendsAll d.bus.2 out.1.bus.2 registerRead) := by
      rintro out rfl
      rw [ifReady_eq, hb, regRead_recorded]
      generalize regRead env.bus d.bus.1 d.addr 0x8000#16 = q
      obtain ⟨s, e | w⟩ := q
      · exact ⟨.one_read (Nat.le_add_left ..) (by show 4 ≤ _ + 8; omega), fun ho => (nomatch ho), fun ho => (nomatch ho)⟩
      · simp only
        cases w.getLsbD 3
        · refine ⟨.one_read (Nat.le_add_left ..) (by show 4 ≤ _ + 8; omega), fun ho => (nomatch (Res.ok.inj ho)), fun _ =>
            ⟨rfl, [Txn.readReg d.addr 0x8000#16 (.ok w)], rfl, rfl, rfl⟩⟩
        · simp only [if_true]
          have hs' : Supported (recordedEnv env) { d with bus := (s, d.bus.2 ++ [Txn.readReg d.addr 0x8000#16 (.ok w)]) } :=
            ⟨h.1, h.2, h.3⟩
          obtain ⟨h1, h2⟩ := subpage_cost hs' (if w.getLsbD 0 then .one else .zero) dest
          generalize Driver.generateImageSubpageTo (recordedEnv env) _ dest
            { d with bus := (s, d.bus.2 ++ [Txn.readReg d.addr 0x8000#16 (.ok w)]) } = q at h1 h2 ⊢
          have more : ∀ {log log' : List (Txn ER EW)} {c : Cost}, Spends log log' ⟨c.transactions + 1, c.bytes + 4⟩ →
              Spends log log' ⟨c.transactions + 2, c.bytes + 8⟩ := by
            rintro log log' c ⟨ts, h1, h2, h3⟩
            exact ⟨ts, h1, by simp only at h2 ⊢; omega, by simp only at h3 ⊢; omega⟩
          obtain ⟨d', dest', u | e | _⟩ := q
          · simp only at h1 h2 ⊢
            rw [regWrite_recorded]
            have h2' := (h2 (fun e he => nomatch he)).after_read
            refine ⟨h1.after_read.and_write, fun _ => h2'.and_write, fun ho => ?_⟩
            simp only at ho
            generalize (regWrite env.bus d'.bus.1 d'.addr 0x8000#16 (StatusReg.resetNewData ⟨w⟩).raw).2 = x at ho
            cases x with
            | none => exact nomatch (Res.ok.inj ho)
            | some e => exact nomatch ho
          · exact ⟨more h1.after_read, fun ho => (nomatch ho), fun ho => (nomatch ho)⟩
          · exact ⟨more h1.after_read, fun ho => (nomatch ho), fun ho => (nomatch ho)⟩
    obtain ⟨g1, g2, g3⟩ := goal _ rfl
    refine ⟨g1, fun _ ho => ?_⟩
    have ho : (discardImage (Driver.generateImageIfReady (recordedEnv env) dest d)).2 = .ok () := ho
    show SpendsAll _ (Driver.generateImageIfReady (recordedEnv env) dest d).1.bus.2 _ ∨ _
    generalize hq : Driver.generateImageIfReady (recordedEnv env) dest d = q at ho g1 g2 g3 ⊢
    obtain ⟨d', dest', r⟩ := q
    match r, ho, g2, g3 with
    | .ok true, _, g2, _ => exact Or.inl (g2 rfl)
    | .ok false, _, _, g3 =>
      obtain ⟨g4, g5⟩ := g3 rfl
      simp only at g4
      subst g4
      exact Or.inr ⟨dest', d', rfl, hq, g5⟩
    | .err e, ho, _, _ => exact nomatch ho
    | .panic, ho, _, _ => exact nomatch ho

theorem new_cost {C : Type} (fromData : List Byte → Res LibErr C) (toCalib : C → Calib F) (b : Bus σ ER EW) (k : Nat)
    (s : σ × List (Txn ER EW)) (addr : Byte) :
    Spends s.2 (Driver.new fromData toCalib (recorded b) k s addr).1.2 constructionCost ∧
    ∀ s' d, Driver.new fromData toCalib (recorded b) k s addr = (s', .ok d) →
      SpendsAll s.2 d.bus.2 constructionCost := by
  obtain ⟨s1, eeprom, ts, outcome, h1, h2⟩ := C39_construction fromData toCalib b k s addr
  rw [h1]
  have both : (ts.length ≤ 2 ∧ traffic ts ≤ 1670) ∧ ∀ d, outcome = .ok d →
      d.bus = (s1, s.2 ++ ts) ∧ ts.length = 2 ∧ traffic ts = 1670 := by
    cases eeprom with
    | error e =>
      obtain ⟨rfl, rfl⟩ := h2
      exact ⟨⟨by simp, by simp [traffic, Txn.bytes]⟩, fun d hd => (nomatch hd)⟩
    | ok bytes =>
      obtain ⟨_, h2⟩ := h2
      cases hc : fromData bytes with
      | err e =>
        rw [hc] at h2
        obtain ⟨rfl, rfl⟩ := h2
        exact ⟨⟨by simp, by simp [traffic, Txn.bytes]⟩, fun d hd => (nomatch hd)⟩
      | panic =>
        rw [hc] at h2
        obtain ⟨rfl, rfl⟩ := h2
        exact ⟨⟨by simp, by simp [traffic, Txn.bytes]⟩, fun d hd => (nomatch hd)⟩
      | ok c =>
        rw [hc] at h2
        obtain ⟨control, rfl, h4⟩ := h2
        have e1 : traffic [Txn.read addr [0x24#8, 0x00#8] 1664 (.ok bytes), (Txn.readReg addr 0x800D#16 control : Txn ER EW)] =
            1670 := by
          rw [traffic_cons, traffic_cons, readReg_bytes]; rfl
        refine ⟨⟨by simp, by rw [e1]⟩, fun d hd => ?_⟩
        cases control with
        | error e => simp only at h4; rw [h4] at hd; exact nomatch hd
        | ok w =>
          obtain ⟨d', h5, h6, _⟩ := h4
          rw [h5] at hd
          cases hd
          exact ⟨h6, rfl, e1⟩
  refine ⟨⟨ts, rfl, both.1.1, both.1.2⟩, fun s' d hd => ?_⟩
  rw [Prod.mk.injEq] at hd
  obtain ⟨h3, h4, h5⟩ := both.2 d hd.2
  exact ⟨ts, by rw [h3], h4, h5⟩

theorem cost_bound {n : Nat} {ap : AccessPattern} (op : Op F) :
    (cost n ap op).transactions ≤ 19 + polls op ∧ (cost n ap op).bytes ≤ 1566 + 4 * polls op := by
  have hf : (frameCost n ap).transactions ≤ 17 ∧ (frameCost n ap).bytes ≤ 1558 := by
    unfold frameCost
    split
    · cases ap <;> decide
    · decide
  cases op <;> simp only [cost, polls, registerRead, registerUpdate] <;> omega

/-- **C85 (each call).** Constructing a driver takes at most one read of the EEPROM and one register read, and takes exactly these
if it succeeds. Every call on a constructed driver, in any state a history of calls leads to, on a bus that may fail at any
time, uses the bus for at most what `cost` lists; and an image method that succeeds for exactly that - except that
`generate_image_if_ready` does one register read if it returns `Ok(false)`, which leaves the destination as it was. -/
theorem C85_call_traffic (m : Mode) (b : Bus σ ER EW) (s s' : σ × List (Txn ER EW)) (addr : Byte)
    (d : Driver F (σ × List (Txn ER EW))) (n : Nat) :
    (Spends s.2 (Driver.new640 (F := F) m (recorded b) s addr).1.2 constructionCost ∧
     Spends s.2 (Driver.new641 (F := F) m (recorded b) s addr).1.2 constructionCost) ∧
    (Made m n (recorded b) s addr s' d →
      SpendsAll s.2 d.bus.2 constructionCost ∧
      ∀ (ops : List (Op F)) (op : Op F),
        let env : Env (σ × List (Txn ER EW)) ER EW := ⟨m, n, recorded b⟩
        let d1 := runOps env ops d
        Spends d1.bus.2 (op.exec env d1).1.bus.2 (cost n d1.accessPattern op) ∧
        (isImage op = true → (op.exec env d1).2 = .ok () →
          SpendsAll d1.bus.2 (op.exec env d1).1.bus.2 (cost n d1.accessPattern op) ∨
          ∃ dest d2, op = .generateImageIfReady dest ∧
            Driver.generateImageIfReady env dest d1 = (d2, dest, .ok false) ∧
            SpendsAll d1.bus.2 d2.bus.2 registerRead)) := by
  refine ⟨⟨(new_cost _ _ b _ s addr).1, (new_cost _ _ b _ s addr).1⟩, fun hd => ⟨?_, fun ops op => ?_⟩⟩
  · rcases hd with ⟨_, hd⟩ | ⟨_, hd⟩
    · exact (new_cost _ _ b _ s addr).2 _ _ hd
    · exact (new_cost _ _ b _ s addr).2 _ _ hd
  · have hs := (runOps_supported (supported_of_new m hd).1 ops).1
    exact call_cost (env := ⟨m, n, b⟩) hs op

/-- **C85 (histories).** A history of calls on a constructed driver uses the bus for at most 19 transactions and 1566 bytes per
call, and one transaction of 4 bytes for every time `synchronize` polls. -/
theorem C85_history_traffic (m : Mode) (b : Bus σ ER EW) (s s' : σ × List (Txn ER EW)) (addr : Byte)
    (d : Driver F (σ × List (Txn ER EW))) (n : Nat) (hd : Made m n (recorded b) s addr s' d) (ops : List (Op F)) :
    Spends d.bus.2 (runOps ⟨m, n, recorded b⟩ ops d).bus.2
      ⟨19 * ops.length + (ops.map polls).sum, 1566 * ops.length + 4 * (ops.map polls).sum⟩ := by
  have key : ∀ (ops : List (Op F)) (d : Driver F (σ × List (Txn ER EW))), Supported (recordedEnv ⟨m, n, b⟩) d →
      Spends d.bus.2 (runOps (recordedEnv ⟨m, n, b⟩) ops d).bus.2
        ⟨19 * ops.length + (ops.map polls).sum, 1566 * ops.length + 4 * (ops.map polls).sum⟩ := by
    intro ops
    induction ops with
    | nil => exact fun d _ => ⟨[], (List.append_nil _).symm, Nat.le_refl _, Nat.le_refl _⟩
    | cons op ops ih =>
      intro d hs
      obtain ⟨ts, h1, h2, h3⟩ := (call_cost hs op).1
      obtain ⟨us, h4, h5, h6⟩ := ih _ (exec_supported hs op).1
      obtain ⟨h7, h8⟩ := cost_bound (n := n) (ap := d.accessPattern) op
      refine ⟨ts ++ us, ?_, ?_, ?_⟩
      · have : runOps (recordedEnv ⟨m, n, b⟩) (op :: ops) d =
          runOps (recordedEnv ⟨m, n, b⟩) ops (op.exec (recordedEnv ⟨m, n, b⟩) d).1 := rfl
        rw [this, h4, h1, List.append_assoc]
      · have h2 : ts.length ≤ (cost n d.accessPattern op).transactions := h2
        simp only [List.length_append, List.length_cons, List.map_cons, List.sum_cons] at h5 ⊢
        omega
      · have h3 : traffic ts ≤ (cost n d.accessPattern op).bytes := h3
        rw [traffic_append]
        simp only [List.length_cons, List.map_cons, List.sum_cons] at h6 ⊢
        omega
  exact key ops d (supported_of_new m hd).1

/-- What C85 assumes is met by an MLX90640 with the EEPROM of the worked example and a bus that notes down all transactions. The
costs are those of the datasheet: 1.5 KB for a frame in chess pattern. -/
example (m : Mode) (dest : List ℝ) :
    (∃ s' d, Made (F := ℝ) m 24 (recorded (cameraBus 0x33#8)) (exampleMemory words640, []) 0x33#8 s' d) ∧
    cost 24 .chess (.generateImageIfReady dest) = ⟨8, 1566⟩ ∧ cost 24 .interleave (.generateImageIfReady dest) = ⟨19, 820⟩ ∧
    cost 12 .interleave (.generateImageIfReady dest) = ⟨13, 424⟩ := by
  obtain ⟨s', d, hd, _⟩ := camera640_example m
  have hv : ActsAs (recorded (cameraBus 0x33#8)) 0x33#8 Prod.fst (cameraBus 0x33#8) := by
    constructor <;> intros <;> rfl
  obtain ⟨st1, d1, h1, _⟩ := made_of_view (t := (exampleMemory words640, [])) hv (Or.inl ⟨rfl, hd⟩)
  exact ⟨⟨st1, d1, h1⟩, rfl, rfl, rfl⟩

end Mlx.Props
