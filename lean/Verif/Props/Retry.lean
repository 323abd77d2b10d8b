import Verif.Spec.Retry
import Verif.Props.Hold
import Verif.Props.Stale
import Verif.Props.Restart
/-
C109: what comes of calls that are made again after errors.
-/
set_option linter.unusedSectionVars false
set_option autoImplicit false
namespace Mlx.Props
open Mlx Mlx.Spec Mlx.Proofs F32Ops
variable {F σ ER EW : Type} [F32Ops F] {mem : σ → Word → Word}

/-! ### A camera that holds still -/

theorem still_regWrite (addr : Byte) (V : Word → Word) (reg v : Word) :
    regWrite (cameraBus addr) V addr reg v = (setWord V reg v, none) := by
  unfold regWrite
  simp only [cameraBus, toBe, if_true, List.cons_append, List.nil_append, be16_toBe]

theorem still_blind (addr : Byte) : BufferBlind (cameraBus addr) := by
  intro s a out buf buf' hl
  simp only [cameraBus]
  split
  · split
    · exact ⟨rfl, rfl, fun _ => by rw [hl]⟩
    · exact ⟨rfl, rfl, fun h => nomatch h⟩
  · exact ⟨rfl, rfl, fun h => nomatch h⟩

theorem setWord_twice (M : Word → Word) (reg v v' : Word) : setWord (setWord M reg v) reg v' = setWord M reg v' := by
  funext a
  unfold setWord
  split <;> rfl

theorem setWord_at (M : Word → Word) (reg v : Word) : setWord M reg v reg = v := by
  unfold setWord
  exact if_pos rfl

/-- A call that, when it succeeds behind a faulty bus, does what it does with a camera that holds still; and when it fails, does
nothing that matters when it is made again. -/
def Resumes (mem : σ → Word → Word) (d : Driver F σ)
    (real : Driver F σ → Driver F σ × Res (Err ER EW) Unit)
    (still : Driver F (Word → Word) → Driver F (Word → Word) × Res (Err Unit Unit) Unit) : Prop :=
  (∀ e, (real d).2 = .err e → still (Driver.onStill (real d).1 (mem (real d).1.bus)) = still (Driver.onStill d (mem d.bus))) ∧
  ((real d).2 = .ok () → still (Driver.onStill d (mem d.bus)) = (Driver.onStill (real d).1 (mem (real d).1.bus), .ok ()))

/-- A call that reads the status register. -/
def statusCall {σ ER EW : Type} (env : Env σ ER EW) (d : Driver F σ) : Driver F σ × Res (Err ER EW) Unit :=
  ({ d with bus := (regRead env.bus d.bus d.addr 0x8000#16).1 },
    match (regRead env.bus d.bus d.addr 0x8000#16).2 with
    | .ok _ => .ok ()
    | .error e => .err (.i2cWriteRead e))

/-- A call that reads the status register and then, unless `skip`, writes it. -/
def editCall {σ ER EW : Type} (skip : Word → Bool) (edit : Word → Word) (env : Env σ ER EW) (d : Driver F σ) :
    Driver F σ × Res (Err ER EW) Unit :=
  match (regRead env.bus d.bus d.addr 0x8000#16).2 with
  | .error e => ({ d with bus := (regRead env.bus d.bus d.addr 0x8000#16).1 }, .err (.i2cWriteRead e))
  | .ok w =>
    if skip w = true then ({ d with bus := (regRead env.bus d.bus d.addr 0x8000#16).1 }, .ok ())
    else ({ d with bus := (regWrite env.bus (regRead env.bus d.bus d.addr 0x8000#16).1 d.addr 0x8000#16 (edit w)).1 },
      match (regWrite env.bus (regRead env.bus d.bus d.addr 0x8000#16).1 d.addr 0x8000#16 (edit w)).2 with
      | none => .ok ()
      | some e => .err (.i2cWrite e))

section
variable {env : Env σ ER EW} {d : Driver F σ}

theorem get_resumes (h : FaultyMemory env.bus d.addr mem) (f : CtrlField) (hf : f ≠ .stepMode) :
    Resumes mem d (fun d => discard (driverGet env f hf d))
      (fun d' => discard (driverGet ⟨env.mode, env.height, cameraBus d.addr⟩ f hf d')) := by
  have hstill : ∀ (e : Driver F (Word → Word)), e.addr = d.addr → discard (driverGet ⟨env.mode, env.height, cameraBus d.addr⟩ f hf e) =
      (sawControl e (e.bus 0x800D#16), .ok ()) := by
    intro e he
    unfold discard
    rw [← he, driverGet_eq]
    dsimp only
    rw [still_regRead]
  unfold Resumes
  dsimp only
  rw [hstill (Driver.onStill d (mem d.bus)) rfl]
  obtain ⟨hr, hv⟩ := free_regRead h d.bus 0x800D#16
  unfold discard at *
  rw [driverGet_eq]
  generalize regRead env.bus d.bus d.addr 0x800D#16 = q at hr hv ⊢
  obtain ⟨s1, e | w⟩ := q
  · dsimp only at hr ⊢
    refine ⟨fun _ _ => ?_, fun hc => nomatch hc⟩
    rw [hr]
    exact hstill (Driver.onStill d (mem d.bus)) rfl
  · dsimp only at hr hv ⊢
    refine ⟨fun _ hc => (nomatch hc), fun _ => ?_⟩
    obtain rfl := hv w rfl
    rw [show (sawControl { d with bus := s1 } (mem d.bus 0x800D#16)).bus = s1 from rfl, hr]
    rfl

theorem set_resumes (h : FaultyMemory env.bus d.addr mem) (f : CtrlField) (hf : f ≠ .stepMode) (v : f.Val) :
    Resumes mem d (fun d => discard (driverSet env f hf v d))
      (fun d' => discard (driverSet ⟨env.mode, env.height, cameraBus d.addr⟩ f hf v d')) := by
  have hstill : ∀ (e : Driver F (Word → Word)), e.addr = d.addr → discard (driverSet ⟨env.mode, env.height, cameraBus d.addr⟩ f hf v e) =
      if f.code (f.valueIn (e.bus 0x800D#16)) = f.code v then (sawControl e (e.bus 0x800D#16), .ok ())
      else ({ sawControl e (f.set ⟨e.bus 0x800D#16⟩ v).raw with bus := setWord e.bus 0x800D#16 (f.set ⟨e.bus 0x800D#16⟩ v).raw }, .ok ()) := by
    intro e he
    unfold discard
    rw [← he, driverSet_eq]
    dsimp only
    rw [still_regRead]
    dsimp only
    rw [still_regWrite]
    split <;> rfl
  unfold Resumes
  dsimp only
  rw [hstill (Driver.onStill d (mem d.bus)) rfl]
  obtain ⟨hr, hv⟩ := free_regRead h d.bus 0x800D#16
  unfold discard at *
  rw [driverSet_eq]
  generalize regRead env.bus d.bus d.addr 0x800D#16 = q at hr hv ⊢
  obtain ⟨s1, e | w⟩ := q
  · dsimp only at hr ⊢
    refine ⟨fun _ _ => ?_, fun hc => nomatch hc⟩
    rw [hr]
    exact hstill (Driver.onStill d (mem d.bus)) rfl
  · dsimp only at hr hv ⊢
    obtain rfl := hv w rfl
    show _ ∧ (_ → (if f.code (f.valueIn (mem d.bus 0x800D#16)) = f.code v then _ else _) = _)
    by_cases hc : f.code (f.valueIn (mem d.bus 0x800D#16)) = f.code v
    · simp only [if_pos hc]
      refine ⟨fun _ hc => (nomatch hc), fun _ => ?_⟩
      rw [show (sawControl { d with bus := s1 } (mem d.bus 0x800D#16)).bus = s1 from rfl, hr]
      rfl
    · simp only [if_neg hc]
      have hok := h.write_ok s1 0x800D#16 (f.set ⟨mem d.bus 0x800D#16⟩ v).raw
      have herr := h.write_err s1 0x800D#16 (f.set ⟨mem d.bus 0x800D#16⟩ v).raw
      unfold regWrite
      generalize env.bus.write s1 d.addr (toBe 0x800D#16 ++ toBe (f.set ⟨mem d.bus 0x800D#16⟩ v).raw) = p at hok herr ⊢
      obtain ⟨s2, _ | e⟩ := p
      · dsimp only at hok ⊢
        refine ⟨fun _ hc => (nomatch hc), fun _ => ?_⟩
        rw [hok rfl, hr]
        rfl
      · dsimp only at herr ⊢
        refine ⟨fun _ _ => ?_, fun hc => nomatch hc⟩
        have he := herr (fun hc => nomatch hc)
        rw [hr] at he
        have hs := hstill (Driver.onStill ({ sawControl d (f.set ⟨mem d.bus 0x800D#16⟩ v).raw with bus := s2 } : Driver F σ) (mem s2)) rfl
        refine hs.trans (Eq.trans ?_ (if_neg hc).symm)
        show (if f.code (f.valueIn (mem s2 0x800D#16)) = f.code v then
          (sawControl (Driver.onStill d (mem s2)) (mem s2 0x800D#16), Res.ok ())
          else ({ sawControl (Driver.onStill d (mem s2)) (f.set ⟨mem s2 0x800D#16⟩ v).raw with
            bus := setWord (mem s2) 0x800D#16 (f.set ⟨mem s2 0x800D#16⟩ v).raw }, .ok ())) = _
        rcases he with he | he
        · rw [he, if_neg hc]
          rfl
        · rw [he, setWord_at, valueIn_replaced (f := f) (w := mem d.bus 0x800D#16) (fun i => set_bits f ⟨_⟩ v i), if_pos rfl]
          rfl

theorem stat_resumes (h : FaultyMemory env.bus d.addr mem) :
    Resumes (ER := ER) (EW := EW) mem d (statusCall env) (statusCall ⟨env.mode, env.height, cameraBus d.addr⟩) := by
  unfold Resumes
  have hs : statusCall ⟨env.mode, env.height, cameraBus d.addr⟩ (Driver.onStill d (mem d.bus)) = (Driver.onStill d (mem d.bus), .ok ()) := by
    unfold statusCall
    dsimp only
    rw [show (Driver.onStill d (mem d.bus)).addr = d.addr from rfl, still_regRead]
    rfl
  obtain ⟨hr, hv⟩ := free_regRead h d.bus 0x8000#16
  rw [hs]
  have hm : Driver.onStill (statusCall env d).1 (mem (statusCall env d).1.bus) = Driver.onStill d (mem d.bus) := by
    show Driver.onStill d (mem (regRead env.bus d.bus d.addr 0x8000#16).1) = _
    rw [hr]
  rw [hm]
  exact ⟨fun _ _ => hs, fun _ => rfl⟩

/-- Writing the status register after reading it. -/
theorem status_resumes (h : FaultyMemory env.bus d.addr mem) (skip : Word → Bool) (edit : Word → Word)
    (hi : ∀ w, skip (edit w) = true ∨ edit (edit w) = edit w) :
    Resumes (ER := ER) (EW := EW) mem d (editCall skip edit env) (editCall skip edit ⟨env.mode, env.height, cameraBus d.addr⟩) := by
  have hstill : ∀ (e : Driver F (Word → Word)), e.addr = d.addr → editCall skip edit ⟨env.mode, env.height, cameraBus d.addr⟩ e =
      if skip (e.bus 0x8000#16) = true then (e, .ok ())
      else ({ e with bus := setWord e.bus 0x8000#16 (edit (e.bus 0x8000#16)) }, .ok ()) := by
    intro e he
    unfold editCall
    rw [← he]
    dsimp only
    rw [still_regRead]
    dsimp only
    rw [still_regWrite]
  unfold Resumes
  rw [hstill (Driver.onStill d (mem d.bus)) rfl]
  have hs1 := hstill (Driver.onStill d (mem d.bus)) rfl
  unfold editCall at hs1 hstill ⊢
  obtain ⟨hr, hv⟩ := free_regRead h d.bus 0x8000#16
  generalize regRead env.bus d.bus d.addr 0x8000#16 = q at hr hv ⊢
  obtain ⟨s1, e | w⟩ := q
  · dsimp only at hr ⊢
    rw [hr]
    exact ⟨fun _ _ => hs1, fun hc => nomatch hc⟩
  · dsimp only at hr hv ⊢
    obtain rfl := hv w rfl
    show _ ∧ (_ → (if skip (mem d.bus 0x8000#16) = true then _ else _) = _)
    by_cases hc : skip (mem d.bus 0x8000#16) = true
    · simp only [if_pos hc]
      refine ⟨fun _ hc => (nomatch hc), fun _ => ?_⟩
      rw [hr]
      rfl
    · simp only [if_neg hc]
      have hok := h.write_ok s1 0x8000#16 (edit (mem d.bus 0x8000#16))
      have herr := h.write_err s1 0x8000#16 (edit (mem d.bus 0x8000#16))
      unfold regWrite
      generalize env.bus.write s1 d.addr (toBe 0x8000#16 ++ toBe (edit (mem d.bus 0x8000#16))) = p at hok herr ⊢
      obtain ⟨s2, _ | e⟩ := p
      · dsimp only at hok ⊢
        refine ⟨fun _ hc => (nomatch hc), fun _ => ?_⟩
        rw [hok rfl, hr]
        rfl
      · dsimp only at herr ⊢
        refine ⟨fun _ _ => ?_, fun hc => nomatch hc⟩
        have he := herr (fun hc => nomatch hc)
        rw [hr] at he
        refine (hstill (Driver.onStill ({ d with bus := s2 } : Driver F σ) (mem s2)) rfl).trans (Eq.trans ?_ (if_neg hc).symm)
        show (if skip (mem s2 0x8000#16) = true then (Driver.onStill d (mem s2), Res.ok ())
          else (Driver.onStill d (setWord (mem s2) 0x8000#16 (edit (mem s2 0x8000#16))), .ok ())) = _
        rcases he with he | he
        · rw [he, if_neg hc]
          rfl
        · rw [he, setWord_at]
          rcases hi (mem d.bus 0x8000#16) with hs | hs
          · rw [if_pos hs]
            rfl
          · split
            · rfl
            · rw [setWord_twice, hs]
              rfl

/-- A call that resumes for `op`. -/
theorem op_resumes (h : FaultyMemory env.bus d.addr mem) (op : Op F) (hn : ¬ ImageOrSync op) :
    Resumes mem d (fun d => op.exec env d) (fun d' => op.exec ⟨env.mode, env.height, cameraBus d.addr⟩ d') := by
  have stat : ∀ {σ ER EW : Type} (env : Env σ ER EW) (d : Driver F σ),
      (Op.exec env (.lastMeasuredSubpage) d = statusCall env d ∧ Op.exec env (.dataAvailable) d = statusCall env d) ∧ Op.exec env (.overwriteEnabled) d = statusCall env d := by
    intro σ ER EW env d
    refine ⟨⟨?_, ?_⟩, ?_⟩
    · unfold statusCall
      show discard (Driver.lastMeasuredSubpage env d) = _
      unfold Driver.lastMeasuredSubpage
      rw [dm_bind, statusRegister_eq]
      cases (regRead env.bus d.bus d.addr 0x8000#16).2 with
      | error e => rfl
      | ok w => simp only [DM.lift, status_subpage]; rfl
    · unfold statusCall
      show discard (Driver.dataAvailable env d) = _
      unfold Driver.dataAvailable
      rw [dm_bind, statusRegister_eq]
      cases (regRead env.bus d.bus d.addr 0x8000#16).2 with
      | error e => rfl
      | ok w =>
        simp only [status_newData]
        cases w.getLsbD 3
        · rfl
        · simp only [if_true]
          rw [dm_bind]
          simp only [DM.lift, status_subpage]
          rfl
    · unfold statusCall
      show discard (Driver.overwriteEnabled env d) = _
      unfold Driver.overwriteEnabled
      rw [dm_bind, statusRegister_eq]
      cases (regRead env.bus d.bus d.addr 0x8000#16).2 <;> rfl
  cases op with
  | generateRawImageSubpageTo _ _ => exact absurd trivial hn
  | generateImageSubpageTo _ _ => exact absurd trivial hn
  | generateImageTo _ => exact absurd trivial hn
  | generateImageIfReady _ => exact absurd trivial hn
  | synchronize _ => exact absurd trivial hn
  | subpagesEnabled => exact get_resumes h .useSubpages (by decide)
  | dataHoldEnabled => exact get_resumes h .dataHold (by decide)
  | subpageRepeat => exact get_resumes h .subpageRepeat (by decide)
  | selectedSubpage => exact get_resumes h .subpage (by decide)
  | frameRate => exact get_resumes h .frameRate (by decide)
  | resolution => exact get_resumes h .resolution (by decide)
  | accessPattern => exact get_resumes h .accessPattern (by decide)
  | setUseSubpages v => exact set_resumes h .useSubpages (by decide) v
  | setDataHold v => exact set_resumes h .dataHold (by decide) v
  | setSubpageRepeat v => exact set_resumes h .subpageRepeat (by decide) v
  | setSubpage v => exact set_resumes h .subpage (by decide) v
  | setFrameRate v => exact set_resumes h .frameRate (by decide) v
  | setResolution v => exact set_resumes h .resolution (by decide) v
  | setAccessPattern v => exact set_resumes h .accessPattern (by decide) v
  | overrideEmissivity v => exact ⟨fun e hc => (nomatch hc), fun _ => rfl⟩
  | useDefaultEmissivity => exact ⟨fun e hc => (nomatch hc), fun _ => rfl⟩
  | setReflectedTemperature v => exact ⟨fun e hc => (nomatch hc), fun _ => rfl⟩
  | lastMeasuredSubpage =>
    simp only [(stat _ _).1.1]
    exact stat_resumes h
  | dataAvailable =>
    simp only [(stat _ _).1.2]
    exact stat_resumes h
  | overwriteEnabled =>
    simp only [(stat _ _).2]
    exact stat_resumes h
  | resetDataAvailable =>
    have he : ∀ {σ ER EW : Type} (env : Env σ ER EW) (d : Driver F σ), Op.exec env .resetDataAvailable d =
        editCall (fun _ => false) (fun w => (StatusReg.resetNewData ⟨w⟩).raw) env d := by
      intro σ ER EW env d
      show discard (Driver.resetDataAvailable env d) = _
      unfold discard editCall
      rw [resetDataAvailable_eq]
      cases (regRead env.bus d.bus d.addr 0x8000#16).2 with
      | error e => rfl
      | ok w =>
        dsimp only
        rw [if_neg (by decide)]
        cases (regWrite env.bus (regRead env.bus d.bus d.addr 0x8000#16).1 d.addr 0x8000#16 (StatusReg.resetNewData ⟨w⟩).raw).2 <;> rfl
    simp only [he]
    refine status_resumes h _ _ fun w => Or.inr (word_ext fun i _ => ?_)
    rw [resetNewData_bits]
    split
    · rename_i hi
      rw [resetNewData_bits, if_pos hi]
    · rfl
  | setOverwriteEnabled v =>
    have he : ∀ {σ ER EW : Type} (env : Env σ ER EW) (d : Driver F σ), Op.exec env (.setOverwriteEnabled v) d =
        editCall (fun w => w.getLsbD 4 == v) (fun w => (StatusReg.setOverwriteEnabled ⟨w⟩ v).raw) env d := by
      intro σ ER EW env d
      show discard (Driver.setOverwriteEnabled env v d) = _
      unfold discard editCall
      rw [setOverwrite_eq]
      cases (regRead env.bus d.bus d.addr 0x8000#16).2 with
      | error e => rfl
      | ok w =>
        dsimp only
        by_cases hc : w.getLsbD 4 = v
        · rw [if_pos hc, if_pos (beq_iff_eq.2 hc)]
        · rw [if_neg hc, if_neg (fun h => hc (beq_iff_eq.1 h))]
          cases (regWrite env.bus (regRead env.bus d.bus d.addr 0x8000#16).1 d.addr 0x8000#16
            (StatusReg.setOverwriteEnabled ⟨w⟩ v).raw).2 <;> rfl
    simp only [he]
    refine status_resumes h _ _ fun w => Or.inl ?_
    rw [setOverwrite_bits, if_pos rfl, beq_self_eq_true]

end

/-- **C109 (calls without an image).** On a camera that holds its memory, behind a bus with any errors (writes reported to have failed
may have arrived or not): a call made until it succeeds has the effect, on camera and driver, of one call without errors. -/
theorem C109_retry (env : Env σ ER EW) (d d1 d2 : Driver F σ) (h : FaultyMemory env.bus d.addr mem) (op : Op F)
    (hn : ¬ ImageOrSync op) (hr : Retried env op d d1) (hok : op.exec env d1 = (d2, .ok ())) :
    op.exec ⟨env.mode, env.height, cameraBus d.addr⟩ (Driver.onStill d (mem d.bus)) = (Driver.onStill d2 (mem d2.bus), .ok ()) := by
  have key : d1.addr = d.addr ∧ op.exec ⟨env.mode, env.height, cameraBus d.addr⟩ (Driver.onStill d1 (mem d1.bus)) =
      op.exec ⟨env.mode, env.height, cameraBus d.addr⟩ (Driver.onStill d (mem d.bus)) := by
    clear hok
    induction hr with
    | start => exact ⟨rfl, rfl⟩
    | again hr he ih =>
      obtain ⟨ha, ih⟩ := ih
      have h1 := (op_resumes (d := _) (by rw [ha]; exact h) op hn).1 _ (congrArg Prod.snd he)
      dsimp only at h1
      rw [he, ha] at h1
      refine ⟨?_, h1.trans ih⟩
      rename_i a b e
      have hk : (op.exec env a).1.addr = a.addr := by
        cases hl : isLocal op with
        | true => cases op <;> simp only [isLocal, Bool.false_eq_true] at hl <;> rfl
        | false => exact (exec_keeps env op hl a).1.addr
      rw [he] at hk
      exact hk.trans ha
  have h1 := (op_resumes (d := d1) (by rw [key.1]; exact h) op hn).2 (congrArg Prod.snd hok)
  dsimp only at h1
  rw [hok, key.1] at h1
  rw [← key.2]
  exact h1

/-! ### Images -/

theorem temps_again {ε : Type} {m : Mode} {c : Calib F} {em rc : F} {tR : Option F} {px : List Byte} {ram : RamData}
    {s : Subpage} {a : AccessPattern} {valid : List Bool} {dest : List F} {tA : F} {dest' : List F}
    (h : rawPixelsToTemperatures (ε := ε) m c em tR rc px ram s a valid dest = .ok (tA, dest')) :
    rawPixelsToTemperatures (ε := ε) m c em tR rc px ram s a valid dest' = .ok (tA, dest') := by
  obtain ⟨common, k, hc, ht, hk, hl, hall⟩ := temps_ok h
  have : ∃ out, rawPixelsToTemperatures (ε := ε) m c em tR rc px ram s a valid dest' = .ok (common.tA, out) := by
    unfold rawPixelsToTemperatures
    rw [hc]
    unfold idx
    rw [hk]
    exact ⟨_, rfl⟩
  obtain ⟨out, ho⟩ := this
  obtain ⟨common', k', hc', ht', hk', hl', hall'⟩ := temps_ok ho
  rw [hc] at hc'
  rw [hk] at hk'
  cases hc'
  cases hk'
  rw [ho, ht]
  congr 2
  refine List.ext_getElem? fun i => ?_
  rw [hall' i, hall i, ← ht]
  cases tempItem c px s a i with
  | none => rfl
  | some x =>
    cases valid[i]? with
    | none => rfl
    | some v =>
      cases v with
      | false => rfl
      | true => cases dest[i]? <;> rfl

theorem raw_again {ε : Type} {m : Mode} {c : Calib F} {em rc : F} {px : List Byte} {ram : RamData}
    {s : Subpage} {a : AccessPattern} {valid : List Bool} {dest : List F} {tA : F} {dest' : List F}
    (h : rawPixelsToIrData (ε := ε) m c em rc px ram s a valid dest = .ok (tA, dest')) :
    rawPixelsToIrData (ε := ε) m c em rc px ram s a valid dest' = .ok (tA, dest') := by
  obtain ⟨common, hc, ht, hl, hall⟩ := rawIr_ok h
  have : ∃ out, rawPixelsToIrData (ε := ε) m c em rc px ram s a valid dest' = .ok (common.tA, out) := by
    unfold rawPixelsToIrData
    rw [hc]
    exact ⟨_, rfl⟩
  obtain ⟨out, ho⟩ := this
  obtain ⟨common', hc', ht', hl', hall'⟩ := rawIr_ok ho
  rw [hc] at hc'
  cases hc'
  rw [ho, ht]
  congr 2
  refine List.ext_getElem? fun i => ?_
  rw [hall' i, hall i]
  cases rawItem c px s a i with
  | none => rfl
  | some x =>
    cases valid[i]? with
    | none => rfl
    | some v =>
      cases v with
      | false => rfl
      | true => cases dest[i]? <;> rfl

theorem same_of {τ : Type} {x y : Driver F τ} (h1 : x.bus = y.bus) (h2 : x.addr = y.addr) (h3 : x.calib = y.calib)
    (h4 : x.pixelBuf.length = y.pixelBuf.length) (h5 : x.resCorr = y.resCorr) (h6 : x.ambient = y.ambient)
    (h7 : x.emissivity = y.emissivity) (h8 : x.accessPattern = y.accessPattern) (h9 : x.reflected = y.reflected) :
    SameButPixels x y := by
  obtain ⟨_, _, _, _, _, _, _, _, _⟩ := x
  obtain ⟨_, _, _, _, _, _, _, _, _⟩ := y
  dsimp only at *
  subst h1 h2 h3 h5 h6 h7 h8 h9
  exact ⟨rfl, h4⟩

theorem same_refl {τ : Type} (x : Driver F τ) : SameButPixels x x := ⟨rfl, rfl⟩

theorem same_symm {τ : Type} {x y : Driver F τ} (h : SameButPixels x y) : SameButPixels y x := by
  obtain ⟨h1, h2⟩ := h
  rw [h1]
  exact ⟨rfl, h2.symm⟩

theorem same_trans {τ : Type} {x y z : Driver F τ} (h : SameButPixels x y) (h' : SameButPixels y z) : SameButPixels x z := by
  refine ⟨?_, h.2.trans h'.2⟩
  rw [h'.1, h.1]

theorem still_bus {m : Mode} {n : Nat} {e : Driver F (Word → Word)} (hs : Supported ⟨m, n, cameraBus e.addr⟩ e) (sp : Subpage) :
    (Driver.readRam ⟨m, n, cameraBus e.addr⟩ sp e).1.bus = e.bus := by
  have h := SurvivesReads.image hs (Inv := fun s => s = e.bus) (fun s base buf _ hi => by
    show ((cameraBus e.addr).writeRead s e.addr (toBe base) buf).1 = _
    unfold cameraBus
    dsimp only
    rw [if_pos rfl]
    exact hi) sp ([] : List F) (fun _ _ _ => .panic) rfl
  rw [(imageWith_keeps _ sp [] e _).2.1] at h
  exact h

/-- An image drawn over itself, on a camera that holds still. -/
theorem still_again {m : Mode} {n : Nat} {e e' e2 : Driver F (Word → Word)} (hs : Supported ⟨m, n, cameraBus e.addr⟩ e)
    {sp : Subpage} {dest dest' : List F}
    (hg : Driver.generateImageSubpageTo ⟨m, n, cameraBus e.addr⟩ sp dest e = (e', dest', .ok ())) (h2 : SameButPixels e' e2) :
    ∃ e3, Driver.generateImageSubpageTo ⟨m, n, cameraBus e.addr⟩ sp dest' e2 = (e3, dest', .ok ()) ∧ SameButPixels e' e3 := by
  have hbus := still_bus hs sp
  have hk := readRam_keeps ⟨m, n, cameraBus e.addr⟩ sp e
  have hb := fun h => blind_readRam hs (still_blind e.addr) (d' := { e2 with ambient := e.ambient }) h sp
  rw [imageSubpage_eq] at hg ⊢
  unfold imageWith at hg ⊢
  have hr2 : Driver.readRam ⟨m, n, cameraBus e.addr⟩ sp e2 =
      ({ (Driver.readRam ⟨m, n, cameraBus e.addr⟩ sp { e2 with ambient := e.ambient }).1 with ambient := e2.ambient },
        (Driver.readRam ⟨m, n, cameraBus e.addr⟩ sp { e2 with ambient := e.ambient }).2) := rfl
  rw [hr2]
  clear hr2
  generalize hq : Driver.readRam ⟨m, n, cameraBus e.addr⟩ sp e = q at hbus hk hb hg
  obtain ⟨q1, ram | er | _⟩ := q
  · dsimp only at hbus hk hg
    cases hc : toTemperatures (ER := Unit) (EW := Unit) m q1 sp dest q1.pixelBuf ram with
    | err er => rw [hc] at hg; simp at hg
    | panic => rw [hc] at hg; simp at hg
    | ok v =>
      obtain ⟨tA, out⟩ := v
      rw [hc] at hg
      simp only [Prod.mk.injEq, and_true] at hg
      obtain ⟨rfl, rfl⟩ := hg
      have hsame : SameButPixels e { e2 with ambient := e.ambient } := by
        obtain ⟨h3, h4⟩ := h2
        dsimp only at h4
        obtain ⟨hk1, hk2⟩ := hk
        rw [hk1] at h3
        rw [h3]
        exact same_of hbus.symm rfl rfl (hk2.symm.trans h4) rfl rfl rfl rfl rfl
      obtain ⟨b1, b2, b3⟩ := hb hsame
      generalize Driver.readRam ⟨m, n, cameraBus e.addr⟩ sp { e2 with ambient := e.ambient } = p at b1 b2 b3 ⊢
      obtain ⟨p1, r⟩ := p
      dsimp only at b1 b2 b3 ⊢
      subst b2
      have b3 := b3 ram rfl
      have ha : ({ p1 with ambient := e2.ambient } : Driver F (Word → Word)) = { q1 with ambient := some tA, pixelBuf := p1.pixelBuf } := by
        rw [b1.1, show e2.ambient = some tA by rw [h2.1]]
      rw [ha]
      have hconv : toTemperatures (ER := Unit) (EW := Unit) m { q1 with ambient := some tA, pixelBuf := p1.pixelBuf } sp out p1.pixelBuf ram =
          .ok (tA, out) := by
        have h1 := temps_again hc
        rw [← h1]
        refine (temps_congr _ _ _ _ _ _ _ _ _ _ _ _ ?_).symm
        rw [hk.1]
        exact b3
      dsimp only
      rw [hconv]
      exact ⟨_, rfl, same_of rfl rfl rfl b1.2 rfl rfl rfl rfl rfl⟩
  · simp at hg
  · simp at hg

section
variable {env : Env σ ER EW} {d : Driver F σ}

theorem faulty_image (hs : Supported env d) (hk : Complete d.calib d.calib.cam.numPixels) (h : FaultyMemory env.bus d.addr mem)
    (sp : Subpage) (dest dest' : List F) (d' : Driver F σ) :
    (Driver.generateRawImageSubpageTo env sp dest d = (d', dest', .ok ()) →
      ∃ e', Driver.generateRawImageSubpageTo ⟨env.mode, env.height, cameraBus d.addr⟩ sp dest (Driver.onStill d (mem d.bus)) =
        (e', dest', .ok ()) ∧ SameButPixels e' (Driver.onStill d' (mem d'.bus))) ∧
    (Driver.generateImageSubpageTo env sp dest d = (d', dest', .ok ()) →
      ∃ e', Driver.generateImageSubpageTo ⟨env.mode, env.height, cameraBus d.addr⟩ sp dest (Driver.onStill d (mem d.bus)) =
        (e', dest', .ok ()) ∧ SameButPixels e' (Driver.onStill d' (mem d'.bus))) ∧
    (∀ e, Driver.generateRawImageSubpageTo env sp dest d = (d', dest', .err e) →
      dest' = dest ∧ SameButPixels (Driver.onStill d (mem d.bus)) (Driver.onStill d' (mem d'.bus))) ∧
    (∀ e, Driver.generateImageSubpageTo env sp dest d = (d', dest', .err e) →
      dest' = dest ∧ SameButPixels (Driver.onStill d (mem d.bus)) (Driver.onStill d' (mem d'.bus))) := by
  have hsv : SurvivesReads (recorded env.bus) d.calib.cam d.addr fun s => mem s.1 = mem d.bus ∧
      ∀ a w, a.toNat < 0x0800 → lastWord d.addr a s.2 = some w → mem d.bus a = w :=
    fun s base buf _ hi => ⟨(h.read s.1 base buf).trans hi.1,
      read_heard h.read_data s base buf (mem d.bus) (fun a _ => by rw [hi.1]) hi.2⟩
  have hst := heard_still (d' := d') hs hk (mem d.bus) hsv ⟨rfl, fun _ _ _ hc => nomatch hc⟩ (fun _ hi => hi.2) sp dest dest'
  have hse : Supported (⟨env.mode, env.height, cameraBus (Driver.onStill d (mem d.bus)).addr⟩ : Env (Word → Word) Unit Unit)
      (Driver.onStill d (mem d.bus)) := ⟨hs.1, hs.2, hs.3⟩
  have hmem : ∀ conv, mem (imageWith env sp dest d conv).1.bus = mem d.bus := fun conv =>
    SurvivesReads.image (Inv := fun s => mem s = mem d.bus) hs (fun s base buf _ hi => (h.read s base buf).trans hi) sp dest conv rfl
  have hbus := still_bus hse sp
  have good : ∀ (conv : Driver F σ → List Byte → RamData → Res (Err ER EW) (F × List F))
      (conv' : Driver F (Word → Word) → List Byte → RamData → Res (Err Unit Unit) (F × List F)) (e' : Driver F (Word → Word)),
      imageWith env sp dest d conv = (d', dest', .ok ()) →
      imageWith ⟨env.mode, env.height, cameraBus d.addr⟩ sp dest (Driver.onStill d (mem d.bus)) conv' = (e', dest', .ok ()) →
      e'.ambientTemp = d'.ambientTemp → SameButPixels e' (Driver.onStill d' (mem d'.bus)) := by
    intro conv conv' e' h1 h2 h3
    have k1 := imageWith_keeps env sp dest d conv
    have k2 := imageWith_keeps ⟨env.mode, env.height, cameraBus d.addr⟩ sp dest (Driver.onStill d (mem d.bus)) conv'
    have k3 := hmem conv
    rw [h1] at k1 k3
    rw [h2] at k2
    obtain ⟨k1, _, k1a, k1r⟩ := k1
    obtain ⟨k2, k2b, k2a, k2r⟩ := k2
    dsimp only at *
    have hb2 : e'.bus = mem d.bus := k2b.trans hbus
    exact same_of (hb2.trans k3.symm) (k2.addr.trans k1.addr.symm) (k2.calib.trans k1.calib.symm) (k2.buffer.trans k1.buffer.symm)
      (k2r.trans k1r.symm) h3 (k2.emissivity.trans k1.emissivity.symm) (k2a.trans k1a.symm) (k2.reflected.trans k1.reflected.symm)
  have bad : ∀ (conv : Driver F σ → List Byte → RamData → Res (Err ER EW) (F × List F)) e, (∀ d px ram e, conv d px ram ≠ .err e) →
      imageWith env sp dest d conv = (d', dest', .err e) →
      dest' = dest ∧ SameButPixels (Driver.onStill d (mem d.bus)) (Driver.onStill d' (mem d'.bus)) := by
    intro conv e hne h1
    have k3 := hmem conv
    have kr := readRam_keeps env sp d
    rw [h1] at k3
    unfold imageWith at h1
    generalize Driver.readRam env sp d = q at h1 kr
    obtain ⟨q1, ram | er | _⟩ := q
    · dsimp only at h1
      cases hc : conv q1 q1.pixelBuf ram with
      | err er => exact absurd hc (hne _ _ _ _)
      | panic => rw [hc] at h1; simp at h1
      | ok v => rw [hc] at h1; simp at h1
    · simp only [Prod.mk.injEq] at h1
      obtain ⟨rfl, rfl, _⟩ := h1
      obtain ⟨kr1, kr2⟩ := kr
      dsimp only at kr1 kr2 k3
      refine ⟨rfl, ?_⟩
      rw [k3, kr1]
      exact same_of rfl rfl rfl kr2.symm rfl rfl rfl rfl rfl
    · simp at h1
  refine ⟨fun hg => ?_, fun hg => ?_, fun e hg => ?_, fun e hg => ?_⟩
  · obtain ⟨e', r1, r2⟩ := hst.1 hg
    exact ⟨e', r1, good (fun d => toRawImage env.mode d sp dest) (fun d => toRawImage env.mode d sp dest) e' hg r1 r2⟩
  · obtain ⟨e', r1, r2⟩ := hst.2 hg
    exact ⟨e', r1, good (fun d => toTemperatures env.mode d sp dest) (fun d => toTemperatures env.mode d sp dest) e' hg r1 r2⟩
  · exact bad (fun d => toRawImage env.mode d sp dest) e (fun _ _ _ _ => toRawImage_no_err _ _ _ _ _ _ _) hg
  · exact bad (fun d => toTemperatures env.mode d sp dest) e (fun _ _ _ _ => toTemperatures_no_err _ _ _ _ _ _ _) hg

/-- `generate_image_to` likewise. -/
theorem faulty_imageTo (hs : Supported env d) (hk : Complete d.calib d.calib.cam.numPixels) (h : FaultyMemory env.bus d.addr mem)
    (dest dest' : List F) (d' : Driver F σ) :
    (Driver.generateImageTo env dest d = (d', dest', .ok ()) →
      ∃ e', Driver.generateImageTo ⟨env.mode, env.height, cameraBus d.addr⟩ dest (Driver.onStill d (mem d.bus)) =
        (e', dest', .ok ()) ∧ SameButPixels e' (Driver.onStill d' (mem d'.bus))) ∧
    (∀ e, Driver.generateImageTo env dest d = (d', dest', .err e) →
      dest' = dest ∧ SameButPixels (Driver.onStill d (mem d.bus)) (Driver.onStill d' (mem d'.bus))) := by
  have hst := still_imageTo (m := env.mode) (n := env.height) (e := Driver.onStill d (mem d.bus)) dest
  obtain ⟨hr, hv⟩ := free_regRead h d.bus 0x8000#16
  rw [generateImageTo_eq]
  generalize regRead env.bus d.bus d.addr 0x8000#16 = q at hr hv ⊢
  obtain ⟨s1, e | w⟩ := q
  · refine ⟨fun hc => by simp at hc, fun e' hg => ?_⟩
    dsimp only at hg hr
    simp only [Prod.mk.injEq] at hg
    obtain ⟨rfl, rfl, _⟩ := hg
    refine ⟨rfl, ?_⟩
    rw [hr]
    exact same_refl _
  · dsimp only at hr hv ⊢
    obtain rfl := hv w rfl
    obtain ⟨_, f2, _, f4⟩ := faulty_image (d := { d with bus := s1 }) (mem := mem) ⟨hs.1, hs.2, hs.3⟩ hk h
      (if (mem d.bus 0x8000#16).getLsbD 0 then .one else .zero) dest dest' d'
    dsimp only at f2 f4
    rw [hr] at f2 f4
    refine ⟨fun hg => ?_, fun e hg => f4 e hg⟩
    obtain ⟨e', r1, r2⟩ := f2 hg
    exact ⟨e', hst.trans r1, r2⟩

theorem still_ifReady {m : Mode} {n : Nat} (e : Driver F (Word → Word)) (dest : List F) :
    Driver.generateImageIfReady ⟨m, n, cameraBus e.addr⟩ dest e =
      if (e.bus 0x8000#16).getLsbD 3 = true then
        match Driver.generateImageSubpageTo ⟨m, n, cameraBus e.addr⟩ (if (e.bus 0x8000#16).getLsbD 0 then .one else .zero) dest e with
        | (e', dest', .ok ()) =>
          ({ e' with bus := (regWrite (cameraBus e.addr) e'.bus e'.addr 0x8000#16 (StatusReg.resetNewData ⟨e.bus 0x8000#16⟩).raw).1 }, dest',
            match (regWrite (cameraBus e.addr) e'.bus e'.addr 0x8000#16 (StatusReg.resetNewData ⟨e.bus 0x8000#16⟩).raw).2 with
            | none => .ok true
            | some e => .err (.i2cWrite e))
        | (e', dest', .err er) => (e', dest', .err er)
        | (e', dest', .panic) => (e', dest', .panic)
      else (e, dest, .ok false) := by
  rw [ifReady_eq, still_regRead]
  dsimp only
  by_cases hc : (e.bus 0x8000#16).getLsbD 3 = true
  · rw [if_pos hc, if_pos hc]
    generalize Driver.generateImageSubpageTo ⟨m, n, cameraBus e.addr⟩ (if (e.bus 0x8000#16).getLsbD 0 then .one else .zero) dest e = q
    obtain ⟨e', dest', _ | er | _⟩ := q
    · dsimp only
      cases (regWrite (cameraBus e.addr) e'.bus e'.addr 0x8000#16 (StatusReg.resetNewData ⟨e.bus 0x8000#16⟩).raw).2 <;> rfl
    · rfl
    · rfl
  · rw [if_neg hc, if_neg hc]

theorem same_bus {τ : Type} {x y : Driver F τ} (h : SameButPixels x y) (b : τ) :
    SameButPixels { x with bus := b } { y with bus := b } := by
  obtain ⟨h1, h2⟩ := h
  rw [h1]
  exact ⟨rfl, h2⟩

/-- Results of `generate_image_if_ready` that differ at most in the contents of the pixel buffer, and in that the second may be
`Ok(false)` where the first is `Ok(true)`. -/
def SameOrLate {τ A B : Type} (r r' : Driver.ImageResult F τ A B Bool) : Prop :=
  SameButPixels r.1 r'.1 ∧ r.2.1 = r'.2.1 ∧ (r.2.2 = r'.2.2 ∨ r.2.2 = .ok true ∧ r'.2.2 = .ok false)

theorem late_trans {τ A B : Type} {r r' r'' : Driver.ImageResult F τ A B Bool} (h : SameOrLate r r') (h' : SameOrLate r' r'') :
    SameOrLate r r'' := by
  obtain ⟨a1, a2, a3⟩ := h
  obtain ⟨b1, b2, b3⟩ := h'
  refine ⟨same_trans a1 b1, a2.trans b2, ?_⟩
  rcases a3 with a3 | ⟨a3, a4⟩
  · rw [a3]
    exact b3
  · rcases b3 with b3 | ⟨b3, b4⟩
    · exact Or.inr ⟨a3, b3 ▸ a4⟩
    · exact Or.inr ⟨a3, b4⟩

theorem faulty_ifReady (hs : Supported env d) (hk : Complete d.calib d.calib.cam.numPixels) (h : FaultyMemory env.bus d.addr mem)
    (dest dest' : List F) (d' : Driver F σ) :
    (∀ r, Driver.generateImageIfReady env dest d = (d', dest', .ok r) →
      ∃ e', Driver.generateImageIfReady ⟨env.mode, env.height, cameraBus d.addr⟩ dest (Driver.onStill d (mem d.bus)) =
        (e', dest', .ok r) ∧ SameButPixels e' (Driver.onStill d' (mem d'.bus))) ∧
    (∀ e, Driver.generateImageIfReady env dest d = (d', dest', .err e) →
      SameOrLate (Driver.generateImageIfReady ⟨env.mode, env.height, cameraBus d.addr⟩ dest (Driver.onStill d (mem d.bus)))
        (Driver.generateImageIfReady ⟨env.mode, env.height, cameraBus d.addr⟩ dest' (Driver.onStill d' (mem d'.bus)))) := by
  have hse : Supported (⟨env.mode, env.height, cameraBus (Driver.onStill d (mem d.bus)).addr⟩ : Env (Word → Word) Unit Unit)
      (Driver.onStill d (mem d.bus)) := ⟨hs.1, hs.2, hs.3⟩
  have hst := still_ifReady (m := env.mode) (n := env.height) (Driver.onStill d (mem d.bus)) dest
  rw [show (Driver.onStill d (mem d.bus)).addr = d.addr from rfl, show (Driver.onStill d (mem d.bus)).bus = mem d.bus from rfl] at hst
  have same : ∀ d1 : Driver F σ, SameButPixels (Driver.onStill d (mem d.bus)) (Driver.onStill d1 (mem d1.bus)) →
      SameOrLate (Driver.generateImageIfReady ⟨env.mode, env.height, cameraBus d.addr⟩ dest (Driver.onStill d (mem d.bus)))
        (Driver.generateImageIfReady ⟨env.mode, env.height, cameraBus d.addr⟩ dest (Driver.onStill d1 (mem d1.bus))) := by
    intro d1 h1
    obtain ⟨a1, a2⟩ := (C51_no_stale_pixels ⟨env.mode, env.height, cameraBus d.addr⟩ (still_blind d.addr) _ _ hse h1 .zero dest).2.2.2
    exact ⟨a1, by rw [a2], Or.inl (by rw [a2])⟩
  obtain ⟨hr, hv⟩ := free_regRead h d.bus 0x8000#16
  rw [ifReady_eq]
  generalize regRead env.bus d.bus d.addr 0x8000#16 = q at hr hv ⊢
  obtain ⟨s1, e | w⟩ := q
  · refine ⟨fun r hc => by simp at hc, fun e' hg => ?_⟩
    dsimp only at hg hr
    simp only [Prod.mk.injEq] at hg
    obtain ⟨rfl, rfl, _⟩ := hg
    refine same _ ?_
    rw [hr]
    exact same_refl _
  · dsimp only at hr hv ⊢
    obtain rfl := hv w rfl
    by_cases hc : (mem d.bus 0x8000#16).getLsbD 3 = true
    · rw [if_pos hc]
      rw [if_pos hc] at hst
      generalize hsp : (if (mem d.bus 0x8000#16).getLsbD 0 = true then Subpage.one else Subpage.zero) = sp at hst ⊢
      have hf := fun dest' d' => faulty_image (d := { d with bus := s1 }) (mem := mem) ⟨hs.1, hs.2, hs.3⟩ hk h sp dest dest' d'
      dsimp only at hf
      rw [hr] at hf
      have hkeep := imageWith_keeps env sp dest ({ d with bus := s1 } : Driver F σ) (fun d => toTemperatures env.mode d sp dest)
      have hg' : imageWith env sp dest ({ d with bus := s1 } : Driver F σ) (fun d => toTemperatures env.mode d sp dest) =
        Driver.generateImageSubpageTo env sp dest ({ d with bus := s1 } : Driver F σ) := rfl
      rw [hg'] at hkeep
      generalize Driver.generateImageSubpageTo env sp dest ({ d with bus := s1 } : Driver F σ) = q at hf hkeep ⊢
      obtain ⟨d1, dest1, _ | e | _⟩ := q
      · obtain ⟨e', r1, r2⟩ := (hf dest1 d1).2.1 rfl
        have r1' : Driver.generateImageSubpageTo ⟨env.mode, env.height, cameraBus d.addr⟩ sp dest (Driver.onStill d (mem d.bus)) =
          (e', dest1, .ok ()) := r1
        have ha1 : d1.addr = d.addr := hkeep.1.addr
        have hbe : e'.bus = mem d1.bus := by rw [show e'.bus = (Driver.onStill d1 (mem d1.bus)).bus from by rw [r2.1]]; rfl
        have hae : e'.addr = d.addr := by
          have : e'.addr = (Driver.onStill d1 (mem d1.bus)).addr := by rw [r2.1]
          exact this.trans ha1
        have hm1 : mem d1.bus = mem d.bus := by
          rw [← hbe]
          have := still_bus hse sp
          have k := (imageWith_keeps ⟨env.mode, env.height, cameraBus d.addr⟩ sp dest (Driver.onStill d (mem d.bus))
            (fun d => toTemperatures env.mode d sp dest)).2.1
          rw [← imageSubpage_eq, r1'] at k
          exact k.trans this
        rw [r1'] at hst
        dsimp only at hst
        have hw' : regWrite (cameraBus d.addr) e'.bus e'.addr 0x8000#16 (StatusReg.resetNewData ⟨mem d.bus 0x8000#16⟩).raw =
            (setWord e'.bus 0x8000#16 (StatusReg.resetNewData ⟨mem d.bus 0x8000#16⟩).raw, none) := by rw [hae, still_regWrite]
        rw [hw'] at hst
        dsimp only at hst
        have hok := h.write_ok d1.bus 0x8000#16 (StatusReg.resetNewData ⟨mem d.bus 0x8000#16⟩).raw
        have herr := h.write_err d1.bus 0x8000#16 (StatusReg.resetNewData ⟨mem d.bus 0x8000#16⟩).raw
        dsimp only
        have hw : regWrite env.bus d1.bus d1.addr 0x8000#16 (StatusReg.resetNewData ⟨mem d.bus 0x8000#16⟩).raw =
            regWrite env.bus d1.bus d.addr 0x8000#16 (StatusReg.resetNewData ⟨mem d.bus 0x8000#16⟩).raw := by rw [ha1]
        rw [hw]
        unfold regWrite
        generalize env.bus.write d1.bus d.addr (toBe 0x8000#16 ++ toBe (StatusReg.resetNewData ⟨mem d.bus 0x8000#16⟩).raw) = p at hok herr ⊢
        obtain ⟨s2, _ | e⟩ := p
        · dsimp only at hok ⊢
          refine ⟨fun r hg => ?_, fun e hg => by simp at hg⟩
          simp only [Prod.mk.injEq, Res.ok.injEq] at hg
          obtain ⟨rfl, rfl, rfl⟩ := hg
          refine ⟨_, hst, ?_⟩
          rw [hok rfl, ← hbe]
          exact same_bus r2 _
        · dsimp only at herr ⊢
          refine ⟨fun r hg => by simp at hg, fun er hg => ?_⟩
          simp only [Prod.mk.injEq] at hg
          obtain ⟨rfl, rfl, _⟩ := hg
          have he := herr (fun hc => nomatch hc)
          have hst2 := still_ifReady (m := env.mode) (n := env.height)
            (Driver.onStill ({ d1 with bus := s2 } : Driver F σ) (mem s2)) dest1
          rw [show (Driver.onStill ({ d1 with bus := s2 } : Driver F σ) (mem s2)).addr = d.addr from ha1,
            show (Driver.onStill ({ d1 with bus := s2 } : Driver F σ) (mem s2)).bus = mem s2 from rfl] at hst2
          rw [hst]
          dsimp only
          rw [hst2]
          rcases he with he | he
          · have r3 : SameButPixels e' (Driver.onStill ({ d1 with bus := s2 } : Driver F σ) (mem s2)) := by
              rw [he]
              exact r2
            obtain ⟨e3, r4, r5⟩ := still_again hse r1' r3
            have r4 : Driver.generateImageSubpageTo ⟨env.mode, env.height, cameraBus d.addr⟩ sp dest1
              (Driver.onStill ({ d1 with bus := s2 } : Driver F σ) (mem s2)) = (e3, dest1, .ok ()) := r4
            have hae3 : e3.addr = d.addr := by
              rw [r5.1]
              exact hae
            have hbe3 : e3.bus = e'.bus := by rw [r5.1]
            have hm2 : mem s2 = mem d.bus := he.trans hm1
            rw [hm2] at r4 ⊢
            rw [if_pos hc, hsp, r4]
            dsimp only
            have hw3 : regWrite (cameraBus d.addr) e3.bus e3.addr 0x8000#16 (StatusReg.resetNewData ⟨mem d.bus 0x8000#16⟩).raw =
              (setWord e'.bus 0x8000#16 (StatusReg.resetNewData ⟨mem d.bus 0x8000#16⟩).raw, none) := by rw [hae3, still_regWrite, hbe3]
            rw [hw3]
            exact ⟨same_bus r5 _, rfl, Or.inl rfl⟩
          · rw [he, setWord_at, resetNewData_bits, if_pos rfl, if_neg (by decide)]
            refine ⟨?_, rfl, Or.inr ⟨rfl, rfl⟩⟩
            dsimp only
            rw [← hbe]
            exact same_bus r2 _
      · refine ⟨fun r hg => by simp at hg, fun e' hg => ?_⟩
        simp only [Prod.mk.injEq] at hg
        obtain ⟨rfl, rfl, _⟩ := hg
        obtain ⟨k1, k2⟩ := (hf dest1 d1).2.2.2 e rfl
        subst k1
        exact same _ k2
      · exact ⟨fun r hg => by simp at hg, fun e' hg => by simp at hg⟩
    · rw [if_neg hc]
      rw [if_neg hc] at hst
      refine ⟨fun r hg => ?_, fun e hg => by simp at hg⟩
      simp only [Prod.mk.injEq, Res.ok.injEq] at hg
      obtain ⟨rfl, rfl, rfl⟩ := hg
      refine ⟨_, hst, ?_⟩
      rw [hr]
      exact same_refl _

end

/-- The driver during the repetition of an image method. -/
theorem retried_supported {α : Type} {env : Env σ ER EW} {d d1 : Driver F σ} {dest dest1 : List F}
    {call : List F → Driver F σ → Driver.ImageResult F σ ER EW α} {op : List F → Op F}
    (hop : ∀ dest d, (op dest).exec env d = discardImage (call dest d)) (hs : Supported env d) (hr : RetriedImage call dest d dest1 d1) :
    Supported env d1 ∧ d1.addr = d.addr ∧ d1.calib = d.calib := by
  induction hr with
  | start => exact ⟨hs, rfl, rfl⟩
  | again hr he ih =>
    obtain ⟨i1, i2, i3⟩ := ih
    obtain ⟨j1, j2, j3⟩ := exec_supported i1 (op _)
    rw [hop, he] at j1 j2 j3
    exact ⟨j1, j2.trans i2, j3.trans i3⟩

/-- **C109 (images).** The same for the image methods: the image, too, is that of one call without errors. -/
theorem C109_retry_image (env : Env σ ER EW) (d d1 d2 : Driver F σ) (hs : Supported env d)
    (hk : Complete d.calib d.calib.cam.numPixels) (h : FaultyMemory env.bus d.addr mem) (dest dest1 dest2 : List F) :
    let still : Env (Word → Word) Unit Unit := ⟨env.mode, env.height, cameraBus d.addr⟩
    (∀ sp, RetriedImage (Driver.generateRawImageSubpageTo env sp) dest d dest1 d1 →
      Driver.generateRawImageSubpageTo env sp dest1 d1 = (d2, dest2, .ok ()) →
      ∃ e, Driver.generateRawImageSubpageTo still sp dest (Driver.onStill d (mem d.bus)) = (e, dest2, .ok ()) ∧
        SameButPixels e (Driver.onStill d2 (mem d2.bus))) ∧
    (∀ sp, RetriedImage (Driver.generateImageSubpageTo env sp) dest d dest1 d1 →
      Driver.generateImageSubpageTo env sp dest1 d1 = (d2, dest2, .ok ()) →
      ∃ e, Driver.generateImageSubpageTo still sp dest (Driver.onStill d (mem d.bus)) = (e, dest2, .ok ()) ∧
        SameButPixels e (Driver.onStill d2 (mem d2.bus))) ∧
    (RetriedImage (Driver.generateImageTo env) dest d dest1 d1 →
      Driver.generateImageTo env dest1 d1 = (d2, dest2, .ok ()) →
      ∃ e, Driver.generateImageTo still dest (Driver.onStill d (mem d.bus)) = (e, dest2, .ok ()) ∧
        SameButPixels e (Driver.onStill d2 (mem d2.bus))) := by
  intro still
  have hse : Supported still (Driver.onStill d (mem d.bus)) := ⟨hs.1, hs.2, hs.3⟩
  have key : ∀ (call : List F → Driver F σ → Driver.ImageResult F σ ER EW Unit) (op : List F → Op F),
      (∀ dest d, (op dest).exec env d = discardImage (call dest d)) →
      (∀ (d d' : Driver F σ) dest dest' e, Supported env d → Complete d.calib d.calib.cam.numPixels → FaultyMemory env.bus d.addr mem →
        call dest d = (d', dest', .err e) →
        dest' = dest ∧ SameButPixels (Driver.onStill d (mem d.bus)) (Driver.onStill d' (mem d'.bus))) →
      RetriedImage call dest d dest1 d1 → dest1 = dest ∧ SameButPixels (Driver.onStill d (mem d.bus)) (Driver.onStill d1 (mem d1.bus)) := by
    intro call op hop hbad hr
    induction hr with
    | start => exact ⟨rfl, same_refl _⟩
    | again hr he ih =>
      obtain ⟨k1, k2, k3⟩ := retried_supported hop hs hr
      obtain ⟨b1, b2⟩ := hbad _ _ _ _ _ k1 (by rw [k3]; exact hk) (by rw [k2]; exact h) he
      exact ⟨b1.trans ih.1, same_trans ih.2 b2⟩
  have fin : ∀ (call' : Driver F (Word → Word) → Driver.ImageResult F (Word → Word) Unit Unit Unit),
      (∀ e', SameButPixels (Driver.onStill d (mem d.bus)) e' → SameImage (call' (Driver.onStill d (mem d.bus))) (call' e')) →
      SameButPixels (Driver.onStill d (mem d.bus)) (Driver.onStill d1 (mem d1.bus)) →
      (∃ e, call' (Driver.onStill d1 (mem d1.bus)) = (e, dest2, .ok ()) ∧ SameButPixels e (Driver.onStill d2 (mem d2.bus))) →
      ∃ e, call' (Driver.onStill d (mem d.bus)) = (e, dest2, .ok ()) ∧ SameButPixels e (Driver.onStill d2 (mem d2.bus)) := by
    rintro call' hb h1 ⟨e, h2, h3⟩
    obtain ⟨a1, a2⟩ := hb _ h1
    rw [h2] at a1 a2
    refine ⟨(call' (Driver.onStill d (mem d.bus))).1, ?_, same_trans a1 h3⟩
    exact Prod.ext rfl a2
  have blind := fun e' h1 => C51_no_stale_pixels still (still_blind d.addr) (Driver.onStill d (mem d.bus)) e' hse h1
  refine ⟨fun sp hr hok => ?_, fun sp hr hok => ?_, fun hr hok => ?_⟩
  · have hop : ∀ (dest : List F) (d : Driver F σ), (Op.generateRawImageSubpageTo sp dest).exec env d = discardImage (Driver.generateRawImageSubpageTo env sp dest d) :=
      fun _ _ => rfl
    obtain ⟨rfl, hb⟩ := key _ _ hop (fun d d' dest dest' e h1 h2 h3 => (faulty_image h1 h2 h3 sp dest dest' d').2.2.1 e) hr
    obtain ⟨k1, k2, k3⟩ := retried_supported hop hs hr
    have := (faulty_image k1 (by rw [k3]; exact hk) (by rw [k2]; exact h) sp dest1 dest2 d2).1 hok
    rw [k2] at this
    exact fin (Driver.generateRawImageSubpageTo still sp dest1) (fun e' h1 => (blind e' h1 sp dest1).1) hb this
  · have hop : ∀ (dest : List F) (d : Driver F σ), (Op.generateImageSubpageTo sp dest).exec env d = discardImage (Driver.generateImageSubpageTo env sp dest d) :=
      fun _ _ => rfl
    obtain ⟨rfl, hb⟩ := key _ _ hop (fun d d' dest dest' e h1 h2 h3 => (faulty_image h1 h2 h3 sp dest dest' d').2.2.2 e) hr
    obtain ⟨k1, k2, k3⟩ := retried_supported hop hs hr
    have := (faulty_image k1 (by rw [k3]; exact hk) (by rw [k2]; exact h) sp dest1 dest2 d2).2.1 hok
    rw [k2] at this
    exact fin (Driver.generateImageSubpageTo still sp dest1) (fun e' h1 => (blind e' h1 sp dest1).2.1) hb this
  · have hop : ∀ (dest : List F) (d : Driver F σ), (Op.generateImageTo dest).exec env d = discardImage (Driver.generateImageTo env dest d) :=
      fun _ _ => rfl
    obtain ⟨rfl, hb⟩ := key _ _ hop (fun d d' dest dest' e h1 h2 h3 => (faulty_imageTo h1 h2 h3 dest dest' d').2 e) hr
    obtain ⟨k1, k2, k3⟩ := retried_supported hop hs hr
    have := (faulty_imageTo k1 (by rw [k3]; exact hk) (by rw [k2]; exact h) dest1 dest2 d2).1 hok
    rw [k2] at this
    exact fin (Driver.generateImageTo still dest1) (fun e' h1 => (blind e' h1 .zero dest1).2.2.1) hb this

/-- **C109 (`generate_image_if_ready`).** Called until it succeeds, always with the same buffer, it leaves buffer, camera and driver as
one call without errors does, which returns whether there was a new frame at the beginning. If the last of the calls returns `Ok(true)`, there was. -/
theorem C109_retry_if_ready (env : Env σ ER EW) (d d1 d2 : Driver F σ) (hs : Supported env d)
    (hk : Complete d.calib d.calib.cam.numPixels) (h : FaultyMemory env.bus d.addr mem) (dest dest1 dest2 : List F) (r : Bool)
    (hr : RetriedImage (Driver.generateImageIfReady env) dest d dest1 d1)
    (hok : Driver.generateImageIfReady env dest1 d1 = (d2, dest2, .ok r)) :
    ∃ e, Driver.generateImageIfReady ⟨env.mode, env.height, cameraBus d.addr⟩ dest (Driver.onStill d (mem d.bus)) =
        (e, dest2, .ok ((mem d.bus 0x8000#16).getLsbD 3)) ∧ SameButPixels e (Driver.onStill d2 (mem d2.bus)) ∧
      (r = true → (mem d.bus 0x8000#16).getLsbD 3 = true) := by
  have hop : ∀ (dest : List F) (d : Driver F σ), (Op.generateImageIfReady dest).exec env d = discardImage (Driver.generateImageIfReady env dest d) :=
    fun _ _ => rfl
  have key : SameOrLate (Driver.generateImageIfReady ⟨env.mode, env.height, cameraBus d.addr⟩ dest (Driver.onStill d (mem d.bus)))
      (Driver.generateImageIfReady ⟨env.mode, env.height, cameraBus d.addr⟩ dest1 (Driver.onStill d1 (mem d1.bus))) := by
    clear hok
    induction hr with
    | start => exact ⟨same_refl _, rfl, Or.inl rfl⟩
    | again hr he ih =>
      obtain ⟨k1, k2, k3⟩ := retried_supported hop hs hr
      have := (faulty_ifReady k1 (by rw [k3]; exact hk) (by rw [k2]; exact h) _ _ _).2 _ he
      rw [k2] at this
      exact late_trans ih this
  obtain ⟨k1, k2, k3⟩ := retried_supported hop hs hr
  obtain ⟨e', r1, r2⟩ := (faulty_ifReady k1 (by rw [k3]; exact hk) (by rw [k2]; exact h) _ _ _).1 r hok
  rw [k2] at r1
  rw [r1] at key
  obtain ⟨a1, a2, a3⟩ := key
  have hflag : ∀ b, (Driver.generateImageIfReady ⟨env.mode, env.height, cameraBus d.addr⟩ dest (Driver.onStill d (mem d.bus))).2.2 = .ok b →
      b = (mem d.bus 0x8000#16).getLsbD 3 := by
    intro b hb
    have hst := still_ifReady (m := env.mode) (n := env.height) (Driver.onStill d (mem d.bus)) dest
    rw [show (Driver.onStill d (mem d.bus)).addr = d.addr from rfl, show (Driver.onStill d (mem d.bus)).bus = mem d.bus from rfl] at hst
    rw [hst] at hb
    by_cases hc : (mem d.bus 0x8000#16).getLsbD 3 = true
    · rw [if_pos hc] at hb
      rw [hc]
      generalize Driver.generateImageSubpageTo (⟨env.mode, env.height, cameraBus d.addr⟩ : Env (Word → Word) Unit Unit)
        (if (mem d.bus 0x8000#16).getLsbD 0 = true then Subpage.one else Subpage.zero) dest (Driver.onStill d (mem d.bus)) = q at hb
      obtain ⟨e', dest', _ | er | _⟩ := q
      · dsimp only at hb
        cases b with
        | true => rfl
        | false =>
          generalize (regWrite (cameraBus d.addr) e'.bus e'.addr 0x8000#16 (StatusReg.resetNewData ⟨mem d.bus 0x8000#16⟩).raw).2 = w at hb
          cases w <;> simp at hb
      · simp at hb
      · simp at hb
    · rw [if_neg hc] at hb
      rw [← Res.ok.inj hb]
      exact (Bool.eq_false_iff.2 hc).symm
  have hout : ∃ b, (Driver.generateImageIfReady ⟨env.mode, env.height, cameraBus d.addr⟩ dest (Driver.onStill d (mem d.bus))).2.2 = .ok b ∧
      (r = true → b = true) := by
    rcases a3 with a3 | ⟨a3, _⟩
    · exact ⟨r, a3, id⟩
    · exact ⟨true, a3, fun _ => rfl⟩
  obtain ⟨b, hb, hrb⟩ := hout
  have hb' := hflag b hb
  subst hb'
  refine ⟨(Driver.generateImageIfReady ⟨env.mode, env.height, cameraBus d.addr⟩ dest (Driver.onStill d (mem d.bus))).1, ?_,
    same_trans a1 r2, hrb⟩
  rw [← hb, ← show (Driver.generateImageIfReady ⟨env.mode, env.height, cameraBus d.addr⟩ dest (Driver.onStill d (mem d.bus))).2.1 = dest2 from a2]

theorem ranges_error (b : Bus σ ER EW) (addr : Byte) (rs : List PixelRange) (s : σ) (buf : List Byte) (e : EW) :
    (readRanges b addr rs s buf).2.2 ≠ .err (.i2cWrite e) := by
  induction rs generalizing s buf with
  | nil => exact fun h => nomatch h
  | cons r rs ih =>
    unfold readRanges
    split
    · generalize b.writeRead s addr (toBe (BitVec.ofNat 16 r.startAddress)) ((buf.drop r.bufferOffset).take r.length) = q
      obtain ⟨s1, sub, _ | e⟩ := q
      · exact ih _ _
      · exact fun h => nomatch h
    · exact fun h => nomatch h

theorem value_error (b : Bus σ ER EW) (addr : Byte) (a : Word) (s : σ) (e : EW) : (readRamValue b s addr a).2 ≠ .err (.i2cWrite e) := by
  unfold readRamValue Bus.read
  generalize b.writeRead s addr (toBe a) [0#8, 0#8] = q
  obtain ⟨s1, sub, _ | e⟩ := q
  · dsimp only
    split
    · exact fun h => nomatch h
    · exact fun h => nomatch h
    · rename_i hc
      cases hc
    · rename_i hc
      cases hc
  · exact fun h => nomatch h

theorem ramData_error (cam : Cam) (b : Bus σ ER EW) (addr : Byte) (sp : Subpage) (s : σ) (e : EW) :
    (ramDataFromI2c cam b s addr sp).2 ≠ .err (.i2cWrite e) := by
  have hv := fun a s => value_error b addr a s e
  unfold ramDataFromI2c
  have h1 := hv cam.tAVbe s
  generalize readRamValue b s addr cam.tAVbe = q at h1 ⊢
  obtain ⟨s, _ | e1 | _⟩ := q
  · have h1 := hv cam.tAPtat s
    dsimp only
    generalize readRamValue b s addr cam.tAPtat = q at h1 ⊢
    obtain ⟨s, _ | e1 | _⟩ := q
    · have h1 := hv cam.vddPixel s
      dsimp only
      generalize readRamValue b s addr cam.vddPixel = q at h1 ⊢
      obtain ⟨s, _ | e1 | _⟩ := q
      · have h1 := hv cam.gain s
        dsimp only
        generalize readRamValue b s addr cam.gain = q at h1 ⊢
        obtain ⟨s, _ | e1 | _⟩ := q
        · have h1 := hv (cam.compensationPixel sp) s
          dsimp only
          generalize readRamValue b s addr (cam.compensationPixel sp) = q at h1 ⊢
          obtain ⟨s, _ | e1 | _⟩ := q
          · exact fun h => nomatch h
          · exact fun h => h1 (congrArg Res.err (Res.err.inj h))
          · exact fun h => nomatch h
        · exact fun h => h1 (congrArg Res.err (Res.err.inj h))
        · exact fun h => nomatch h
      · exact fun h => h1 (congrArg Res.err (Res.err.inj h))
      · exact fun h => nomatch h
    · exact fun h => h1 (congrArg Res.err (Res.err.inj h))
    · exact fun h => nomatch h
  · exact fun h => h1 (congrArg Res.err (Res.err.inj h))
  · exact fun h => nomatch h

/-- An image of a subpage never fails in writing. -/
theorem image_error (env : Env σ ER EW) (sp : Subpage) (dest : List F) (d : Driver F σ) (e : EW) :
    (Driver.generateImageSubpageTo env sp dest d).2.2 ≠ .err (.i2cWrite e) := by
  have hr : (Driver.readRam env sp d).2 ≠ .err (.i2cWrite e) := by
    unfold Driver.readRam Mlx.readRam
    dsimp only
    generalize d.calib.cam.collectRanges env.mode sp d.accessPattern env.height = c
    obtain rs | x | _ := c
    · dsimp only
      have h1 := ranges_error env.bus d.addr rs d.bus d.pixelBuf e
      generalize readRanges env.bus d.addr rs d.bus d.pixelBuf = q at h1 ⊢
      obtain ⟨s1, px, _ | e1 | _⟩ := q
      · exact ramData_error _ _ _ _ _ _
      · exact fun h => h1 (congrArg Res.err (Res.err.inj h))
      · exact fun h => nomatch h
    · exact nomatch x
    · exact fun h => nomatch h
  rw [imageSubpage_eq]
  unfold imageWith
  generalize Driver.readRam env sp d = q at hr ⊢
  obtain ⟨d1, ram | e1 | _⟩ := q
  · dsimp only
    cases hc : toTemperatures (ER := ER) (EW := EW) env.mode d1 sp dest d1.pixelBuf ram with
    | err er => exact absurd hc (toTemperatures_no_err _ _ _ _ _ _ _)
    | panic => exact fun h => nomatch h
    | ok v => exact fun h => nomatch h
  · exact fun h => hr (congrArg Res.err (Res.err.inj h))
  · exact fun h => nomatch h

/-- **C109 (a lost acknowledgement).** If `generate_image_if_ready` fails in writing, the buffer holds the image nevertheless; and if
the new-data flag was reset by that (the write arrived), the next call that succeeds returns `Ok(false)`, and leaves the buffer alone. -/
theorem C109_lost_acknowledgement (env : Env σ ER EW) (d d1 : Driver F σ) (hs : Supported env d)
    (hk : Complete d.calib d.calib.cam.numPixels) (h : FaultyMemory env.bus d.addr mem) (dest dest1 : List F) (e : EW)
    (herr : Driver.generateImageIfReady env dest d = (d1, dest1, .err (.i2cWrite e))) :
    (∃ e1, Driver.generateImageIfReady ⟨env.mode, env.height, cameraBus d.addr⟩ dest (Driver.onStill d (mem d.bus)) =
      (e1, dest1, .ok true)) ∧
    ((mem d1.bus 0x8000#16).getLsbD 3 = false → ∀ d2 dest2 r, Driver.generateImageIfReady env dest1 d1 = (d2, dest2, .ok r) →
      r = false ∧ dest2 = dest1) := by
  have hst := still_ifReady (m := env.mode) (n := env.height) (Driver.onStill d (mem d.bus)) dest
  rw [show (Driver.onStill d (mem d.bus)).addr = d.addr from rfl, show (Driver.onStill d (mem d.bus)).bus = mem d.bus from rfl] at hst
  constructor
  · obtain ⟨hr, hv⟩ := free_regRead h d.bus 0x8000#16
    rw [ifReady_eq] at herr
    generalize regRead env.bus d.bus d.addr 0x8000#16 = q at hr hv herr
    obtain ⟨s1, e | w⟩ := q
    · simp at herr
    · dsimp only at hr hv herr
      obtain rfl := hv w rfl
      by_cases hc : (mem d.bus 0x8000#16).getLsbD 3 = true
      · rw [if_pos hc] at herr hst
        generalize hsp : (if (mem d.bus 0x8000#16).getLsbD 0 = true then Subpage.one else Subpage.zero) = sp at hst herr
        have hf := fun dest' d' => faulty_image (d := { d with bus := s1 }) (mem := mem) ⟨hs.1, hs.2, hs.3⟩ hk h sp dest dest' d'
        have hno := image_error (F := F) env sp dest ({ d with bus := s1 } : Driver F σ) e
        dsimp only at hf
        rw [hr] at hf
        generalize Driver.generateImageSubpageTo env sp dest ({ d with bus := s1 } : Driver F σ) = q at hf hno herr
        obtain ⟨d2, dest2, _ | e2 | _⟩ := q
        · obtain ⟨e', r1, r2⟩ := (hf dest2 d2).2.1 rfl
          have r1' : Driver.generateImageSubpageTo ⟨env.mode, env.height, cameraBus d.addr⟩ sp dest (Driver.onStill d (mem d.bus)) =
            (e', dest2, .ok ()) := r1
          have hae : e'.addr = d.addr := by
            have k := (imageWith_keeps ⟨env.mode, env.height, cameraBus d.addr⟩ sp dest (Driver.onStill d (mem d.bus))
              (fun d => toTemperatures env.mode d sp dest)).1.addr
            rw [← imageSubpage_eq, r1'] at k
            exact k
          have hd : dest2 = dest1 := congrArg (fun r => r.2.1) herr
          rw [r1', hd] at hst
          dsimp only at hst
          have hw' : regWrite (cameraBus d.addr) e'.bus e'.addr 0x8000#16 (StatusReg.resetNewData ⟨mem d.bus 0x8000#16⟩).raw =
              (setWord e'.bus 0x8000#16 (StatusReg.resetNewData ⟨mem d.bus 0x8000#16⟩).raw, none) := by rw [hae, still_regWrite]
          rw [hw'] at hst
          exact ⟨_, hst⟩
        · refine absurd ?_ hno
          simp only [Prod.mk.injEq, Res.err.injEq] at herr
          rw [herr.2.2]
        · simp at herr
      · rw [if_neg hc] at herr
        simp at herr
  · intro hflag d2 dest2 r hg
    have ha : d1.addr = d.addr := by
      have := (exec_supported hs (.generateImageIfReady dest)).2.1
      rw [show (Op.generateImageIfReady dest).exec env d = discardImage (Driver.generateImageIfReady env dest d) from rfl, herr] at this
      exact this
    obtain ⟨hr, hv⟩ := free_regRead (b := env.bus) (addr := d1.addr) (by rw [ha]; exact h) d1.bus 0x8000#16
    rw [ifReady_eq] at hg
    generalize regRead env.bus d1.bus d1.addr 0x8000#16 = q at hr hv hg
    obtain ⟨s1, e | w⟩ := q
    · simp at hg
    · dsimp only at hr hv hg
      obtain rfl := hv w rfl
      rw [hflag, if_neg (by decide)] at hg
      simp only [Prod.mk.injEq, Res.ok.injEq] at hg
      exact ⟨hg.2.2.symm, hg.2.1.symm⟩

/-! ### A bus with faults -/

theorem faulty_memory (addr : Byte) : FaultyMemory (faultyBus addr) addr Prod.fst where
  read_data s base buf := by
    unfold faultyBus
    dsimp only
    cases s.2 0 with
    | fine => exact (cameraBus_static addr).1 s.1 base buf
    | lost => exact fun h => nomatch h
    | unheard => exact fun h => nomatch h
  read s base buf := by
    unfold faultyBus
    dsimp only
    cases s.2 0 with
    | fine => exact (cameraBus_static addr).2 s.1 base buf
    | lost => rfl
    | unheard => rfl
  write_ok s reg v := by
    unfold faultyBus
    dsimp only
    cases s.2 0 with
    | fine => exact (cameraBus_static addr).3 s.1 reg v
    | lost => exact fun h => nomatch h
    | unheard => exact fun h => nomatch h
  write_err s reg v := by
    have hw : (cameraBus addr).write s.1 addr (toBe reg ++ toBe v) = (setWord s.1 reg v, none) := still_regWrite addr s.1 reg v
    unfold faultyBus
    dsimp only
    rw [hw]
    cases s.2 0 with
    | fine => exact fun h => absurd rfl h
    | lost => exact fun _ => Or.inl rfl
    | unheard => exact fun _ => Or.inr rfl

theorem pair_eq {α β : Type} {p : α × β} {y : β} (h : p.2 = y) : p = (p.1, y) := by
  rw [← h]

theorem triple_eq {α β γ : Type} {p : α × β × γ} {z : γ} (h : p.2.2 = z) : p = (p.1, p.2.1, z) := by
  rw [← h]

/-- A driver just made. -/
def fresh {C : Type} (toCalib : C → Calib F) (n : Nat) (addr : Byte) (w : Word) (bus : σ) (c : C) : Driver F σ :=
  { bus := bus, addr := addr, calib := toCalib c, pixelBuf := List.replicate n 0#8,
    resCorr := resolutionCorrection (toCalib c).resolution (CtrlField.resolution.valueIn w), ambient := none,
    emissivity := (toCalib c).emissivity.getD (lit 1), accessPattern := CtrlField.accessPattern.valueIn w,
    reflected := none }

/-- The result of a constructor that decoded the EEPROM to `r`. -/
def made {C α : Type} (make : C → α) : Res LibErr C → Res (Err ER EW) α
  | .ok c => .ok (make c)
  | .err e => .err (.library e)
  | .panic => .panic

theorem faulty_new {C : Type} (fromData : List Byte → Res LibErr C) (toCalib : C → Calib F) {b : Bus σ ER EW} (n : Nat) (s : σ)
    {addr : Byte} (h : FaultyMemory b addr mem) :
    mem (Driver.new fromData toCalib b n s addr).1 = mem s ∧
    ((∃ e, (Driver.new fromData toCalib b n s addr).2 = .err (.i2cWriteRead e)) ∨
      (Driver.new fromData toCalib b n s addr).2 =
        made (fresh toCalib n addr (mem s 0x800D#16) (Driver.new fromData toCalib b n s addr).1) (fromData (memBytes (mem s) 0x2400#16 1664))) := by
  unfold Driver.new calibFromI2c Bus.read
  have h1 := h.read_data s 0x2400#16 (List.replicate ((0x273F - 0x2400 + 1) * 2) 0#8)
  have h2 : mem _ = mem s := h.read s 0x2400#16 (List.replicate ((0x273F - 0x2400 + 1) * 2) 0#8)
  rw [List.length_replicate] at h1
  generalize b.writeRead s addr (toBe 0x2400#16) (List.replicate ((0x273F - 0x2400 + 1) * 2) 0#8) = q at h1 h2 ⊢
  obtain ⟨s1, bytes, _ | e⟩ := q
  · have hb : bytes = memBytes (mem s) 0x2400#16 1664 := h1 rfl
    simp only at h2 ⊢
    rw [← hb]
    cases fromData bytes with
    | panic => exact ⟨h2, Or.inr rfl⟩
    | err e => exact ⟨h2, Or.inr rfl⟩
    | ok c =>
      simp only [Res.mapErr]
      unfold Driver.newWithCalibration
      rw [readControl_eq]
      obtain ⟨hr, hv⟩ := free_regRead h s1 0x800D#16
      generalize regRead b s1 addr 0x800D#16 = q at hr hv ⊢
      have hr : mem q.1 = mem s1 := hr
      obtain ⟨s2, e | w⟩ := q
      · exact ⟨hr.trans h2, Or.inl ⟨e, rfl⟩⟩
      · have hw := hv w rfl
        rw [h2] at hw
        simp only [resolution_val, accessPattern_val, Res.ok_bind]
        rw [hw]
        exact ⟨hr.trans h2, Or.inr rfl⟩
  · exact ⟨h2, Or.inl ⟨e, rfl⟩⟩

theorem still_read (addr : Byte) (M : Word → Word) (base : Word) (buf : List Byte) :
    (cameraBus addr).writeRead M addr (toBe base) buf = (M, memBytes M base buf.length, none) := by
  simp only [cameraBus, toBe, if_true, be16_toBe]

theorem camera_faulty (addr : Byte) : FaultyMemory (cameraBus addr) addr id where
  read_data s base buf _ := by rw [still_read]; rfl
  read s base buf := by rw [still_read]
  write_ok s reg v _ := by
    show ((cameraBus addr).write s addr (toBe reg ++ toBe v)).1 = setWord s reg v
    exact congrArg Prod.fst (still_regWrite addr s reg v)
  write_err s reg v h := absurd (congrArg Prod.snd (still_regWrite addr s reg v)) h

theorem retry_new {C : Type} (fromData : List Byte → Res LibErr C) (toCalib : C → Calib F) {b : Bus σ ER EW} (n : Nat) {s s1 : σ}
    {addr : Byte} (h : FaultyMemory b addr mem) (hr : RetriedNew (fun b s addr => Driver.new fromData toCalib b n s addr) b addr s s1) :
    mem (Driver.new fromData toCalib b n s1 addr).1 = mem s ∧ (Driver.new fromData toCalib (cameraBus addr) n (mem s) addr).1 = mem s ∧
    SameConstruction mem (Driver.new fromData toCalib b n s1 addr).2 (Driver.new fromData toCalib (cameraBus addr) n (mem s) addr).2 := by
  have hs : mem s1 = mem s := by
    induction hr with
    | start => rfl
    | @again s1 s2 e _ he ih =>
      have := (faulty_new fromData toCalib n s1 h).1
      rw [show Driver.new fromData toCalib b n s1 addr = _ from he] at this
      exact this.trans ih
  obtain ⟨b1, b2⟩ := faulty_new fromData toCalib n s1 h
  obtain ⟨c1, c2⟩ := faulty_new fromData toCalib n (mem s) (camera_faulty addr)
  have hne : ∀ e, (Driver.new fromData toCalib (cameraBus addr) n (mem s) addr).2 ≠ .err (.i2cWriteRead e) := by
    intro e
    unfold Driver.new calibFromI2c Bus.read
    rw [still_read, List.length_replicate]
    dsimp only
    cases fromData (memBytes (mem s) 0x2400#16 ((0x273F - 0x2400 + 1) * 2)) with
    | panic => exact fun h => nomatch h
    | err e => exact fun h => nomatch h
    | ok c =>
      simp only [Res.mapErr]
      unfold Driver.newWithCalibration
      rw [readControl_eq, still_regRead]
      simp only [resolution_val, accessPattern_val, Res.ok_bind]
      exact fun h => nomatch h
  replace c2 := c2.resolve_left fun ⟨e, he⟩ => hne e he
  refine ⟨b1.trans hs, c1, ?_⟩
  generalize Driver.new fromData toCalib b n s1 addr = q at b1 b2 ⊢
  generalize Driver.new fromData toCalib (cameraBus addr) n (mem s) addr = q' at c1 c2 ⊢
  obtain ⟨s2, r⟩ := q
  obtain ⟨M, r'⟩ := q'
  dsimp only at b1 b2 c1 c2 ⊢
  rcases b2 with ⟨e, rfl⟩ | rfl
  · exact .bus e _
  · subst c2
    rw [hs] at b1 ⊢
    have c1 : M = mem s := c1
    subst c1
    dsimp only [id]
    cases fromData (memBytes (mem s) 0x2400#16 1664) with
    | panic => exact .panic
    | err e => exact .data e
    | ok c =>
      have := SameConstruction.driver (EW := EW) (ER := ER) (mem := mem) (fresh toCalib n addr (mem s 0x800D#16) s2 c)
      unfold Driver.onStill at this
      rw [show (fresh toCalib n addr (mem s 0x800D#16) s2 c).bus = s2 from rfl, b1] at this
      exact this

/-- **C109 (construction).** A constructor called until it does not fail on the bus, on a camera that holds its memory, behind a bus with any
errors: what it returns in the end (driver, error in the data, or panic) is what one call without errors returns; and the memory of the
camera is as before the first call. -/
theorem C109_retry_construction (m : Mode) (b : Bus σ ER EW) (s s1 : σ) (addr : Byte) (h : FaultyMemory b addr mem) :
    (RetriedNew (F := F) (Driver.new640 m) b addr s s1 →
      mem (Driver.new640 (F := F) m b s1 addr).1 = mem s ∧ (Driver.new640 (F := F) m (cameraBus addr) (mem s) addr).1 = mem s ∧
      SameConstruction mem (Driver.new640 (F := F) m b s1 addr).2 (Driver.new640 m (cameraBus addr) (mem s) addr).2) ∧
    (RetriedNew (F := F) (Driver.new641 m) b addr s s1 →
      mem (Driver.new641 (F := F) m b s1 addr).1 = mem s ∧ (Driver.new641 (F := F) m (cameraBus addr) (mem s) addr).1 = mem s ∧
      SameConstruction mem (Driver.new641 (F := F) m b s1 addr).2 (Driver.new641 m (cameraBus addr) (mem s) addr).2) :=
  ⟨fun hr => retry_new _ _ _ h hr, fun hr => retry_new _ _ _ h hr⟩

/-- Whether a result is an error of the bus; and whether it is a driver. -/
def failedRead {α : Type} : Res (Err Unit Unit) α → Bool
  | .err (.i2cWriteRead _) => true
  | _ => false
def isMade {α : Type} : Res (Err Unit Unit) α → Bool
  | .ok _ => true
  | _ => false

/-- The hypotheses of `C109_retry_construction` are met: the first call fails to read the EEPROM, the second one the control register, the
third one succeeds. -/
example : ∃ s1 : (Word → Word) × (Nat → Fault),
    let s : (Word → Word) × (Nat → Fault) := (exampleMemory words640, fun n => if n = 0 ∨ n = 2 then .lost else .fine)
    FaultyMemory (faultyBus 0x33#8) 0x33#8 Prod.fst ∧
    RetriedNew (F := Int) (Driver.new640 .checked) (faultyBus 0x33#8) 0x33#8 s s1 ∧
    ∃ s2 d, Driver.new640 (F := Int) .checked (faultyBus 0x33#8) s1 0x33#8 = (s2, .ok d) := by
  have hfail : ∀ {α : Type} (r : Res (Err Unit Unit) α), failedRead r = true → r = .err (.i2cWriteRead ()) := by
    intro α r
    cases r with
    | ok v => exact fun h => nomatch h
    | panic => exact fun h => nomatch h
    | err e => cases e with
      | i2cWriteRead e => exact fun _ => rfl
      | _ => exact fun h => nomatch h
  let s : (Word → Word) × (Nat → Fault) := (exampleMemory words640, fun n => if n = 0 ∨ n = 2 then .lost else .fine)
  let s1 := (Driver.new640 (F := Int) .checked (faultyBus 0x33#8) s 0x33#8).1
  let s2 := (Driver.new640 (F := Int) .checked (faultyBus 0x33#8) s1 0x33#8).1
  have e1 : failedRead (Driver.new640 (F := Int) .checked (faultyBus 0x33#8) s 0x33#8).2 = true := by decide +kernel
  have e2 : failedRead (Driver.new640 (F := Int) .checked (faultyBus 0x33#8) s1 0x33#8).2 = true := by decide +kernel
  have e3 : isMade (Driver.new640 (F := Int) .checked (faultyBus 0x33#8) s2 0x33#8).2 = true := by decide +kernel
  refine ⟨s2, faulty_memory _, .again (.again .start (pair_eq (hfail _ e1))) (pair_eq (hfail _ e2)), ?_⟩
  revert e3
  generalize Driver.new640 (F := Int) .checked (faultyBus 0x33#8) s2 0x33#8 = q
  obtain ⟨s3, r⟩ := q
  cases r with
  | ok d => exact fun _ => ⟨s3, d, rfl⟩
  | err e => exact fun h => nomatch h
  | panic => exact fun h => nomatch h

/-- A driver for a camera with a new frame, behind a bus with these faults. -/
def faultyDriver (faults : Nat → Fault) : Driver Int ((Word → Word) × (Nat → Fault)) :=
  toyDriver Mlx90640.cam 768 (holdFrame false 20#16, faults)

/-- The hypotheses of `C109_retry` are met: `set_frame_rate` fails to read; then its write is lost; then its write arrives, but is not
acknowledged; then all is well. -/
example : ∃ d1 d2 : Driver Int ((Word → Word) × (Nat → Fault)),
    let env : Env ((Word → Word) × (Nat → Fault)) Unit Unit := ⟨.checked, 24, faultyBus 0x33#8⟩
    let d := faultyDriver fun n => if n = 0 ∨ n = 2 then .lost else if n = 4 then .unheard else .fine
    FaultyMemory env.bus d.addr Prod.fst ∧ ¬ ImageOrSync (.setFrameRate .sixtyFour : Op Int) ∧
    Retried env (.setFrameRate .sixtyFour) d d1 ∧ Op.exec env (.setFrameRate .sixtyFour) d1 = (d2, .ok ()) ∧
    d1.bus.1 0x800D#16 ≠ d.bus.1 0x800D#16 := by
  let env : Env ((Word → Word) × (Nat → Fault)) Unit Unit := ⟨.checked, 24, faultyBus 0x33#8⟩
  let d := faultyDriver fun n => if n = 0 ∨ n = 2 then .lost else if n = 4 then .unheard else .fine
  let d1 := (Op.exec env (.setFrameRate .sixtyFour) d).1
  let d2 := (Op.exec env (.setFrameRate .sixtyFour) d1).1
  let d3 := (Op.exec env (.setFrameRate .sixtyFour) d2).1
  have e1 : (Op.exec env (.setFrameRate .sixtyFour) d).2 = .err (.i2cWriteRead ()) := by decide +kernel
  have e2 : (Op.exec env (.setFrameRate .sixtyFour) d1).2 = .err (.i2cWrite ()) := by decide +kernel
  have e3 : (Op.exec env (.setFrameRate .sixtyFour) d2).2 = .err (.i2cWrite ()) := by decide +kernel
  have e4 : (Op.exec env (.setFrameRate .sixtyFour) d3).2 = .ok () := by decide +kernel
  refine ⟨d3, (Op.exec env (.setFrameRate .sixtyFour) d3).1, faulty_memory _, fun h => h, ?_, pair_eq e4, ?_⟩
  · exact .again (.again (.again .start (pair_eq e1)) (pair_eq e2)) (pair_eq e3)
  · show d3.bus.1 0x800D#16 ≠ d.bus.1 0x800D#16
    decide +kernel

/-- The hypotheses of `C109_retry_if_ready` and `C109_lost_acknowledgement` are met: the write of the first call (the eighth
transaction) arrives, but is not acknowledged. The second call returns `Ok(false)`. -/
example : ∃ (d1 d2 : Driver Int ((Word → Word) × (Nat → Fault))) (dest1 dest2 : List Int),
    let env : Env ((Word → Word) × (Nat → Fault)) Unit Unit := ⟨.checked, 24, faultyBus 0x33#8⟩
    let d := faultyDriver fun n => if n = 7 then .unheard else .fine
    Supported env d ∧ Complete d.calib d.calib.cam.numPixels ∧ FaultyMemory env.bus d.addr Prod.fst ∧
    RetriedImage (Driver.generateImageIfReady env) (List.replicate 768 0) d dest1 d1 ∧
    Driver.generateImageIfReady env (List.replicate 768 0) d = (d1, dest1, .err (.i2cWrite ())) ∧
    (d1.bus.1 0x8000#16).getLsbD 3 = false ∧
    Driver.generateImageIfReady env dest1 d1 = (d2, dest2, .ok false) ∧ dest2 ≠ List.replicate 768 0 := by
  let env : Env ((Word → Word) × (Nat → Fault)) Unit Unit := ⟨.checked, 24, faultyBus 0x33#8⟩
  let d := faultyDriver fun n => if n = 7 then .unheard else .fine
  let r := Driver.generateImageIfReady env (List.replicate 768 0) d
  let r' := Driver.generateImageIfReady env r.2.1 r.1
  have e1 : r.2.2 = .err (.i2cWrite ()) := by decide +kernel
  have e2 : r'.2.2 = .ok false := by decide +kernel
  have h1 : r = (r.1, r.2.1, .err (.i2cWrite ())) := triple_eq e1
  have h2 : r' = (r'.1, r'.2.1, .ok false) := triple_eq e2
  refine ⟨r.1, r'.1, r.2.1, r'.2.1, ⟨Or.inl rfl, rfl, List.length_replicate⟩, toyCalib_complete _ _ _ (by decide), faulty_memory _,
    .again .start h1, h1, ?_, h2, ?_⟩
  · decide +kernel
  · decide +kernel

end Mlx.Props
