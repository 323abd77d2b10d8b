import Verif.Proofs.Access
import Verif.Proofs.Heard
import Verif.Spec.Hold
/-
Calls that leave the data of a camera held.
-/
set_option linter.unusedSectionVars false
set_option autoImplicit false
namespace Mlx.Proofs
open Mlx Mlx.Spec F32Ops
variable {F σ ER EW : Type} [F32Ops F]

/-- The words `w'` that a call may write to a register from which it has read `w`. -/
def OpEdit (op : Op F) (reg w w' : Word) : Prop :=
  match op with
  | .setOverwriteEnabled v => reg = 0x8000#16 ∧ w' = (StatusReg.setOverwriteEnabled ⟨w⟩ v).raw
  | .resetDataAvailable => reg = 0x8000#16 ∧ w' = (StatusReg.resetNewData ⟨w⟩).raw
  | .generateImageIfReady _ => reg = 0x8000#16 ∧ w' = (StatusReg.resetNewData ⟨w⟩).raw
  | .synchronize _ => reg = 0x8000#16 ∧ w' = Props.syncWord w
  | .setDataHold v => reg = 0x800D#16 ∧ w' = (CtrlField.dataHold.set ⟨w⟩ v).raw
  | op => setsControl op = true ∧ reg = 0x800D#16 ∧ ∃ f : CtrlField, f ≠ .stepMode ∧ f ≠ .dataHold ∧ ∃ v, w' = (f.set ⟨w⟩ v).raw

/-- `Inv` survives documented reads, and the writes of a call. -/
structure SurvivesOp (b : Bus σ ER EW) (cam : Cam) (addr : Byte) (op : Op F) (Inv : σ → Prop) (Holds : Word → Word → σ → Prop) :
    Prop where
  read : SurvivesReads b cam addr Inv
  keeps : ∀ reg w, SurvivesReads b cam addr (Holds reg w)
  knows : ∀ s reg w, Writable reg → Inv s → (regRead b s addr reg).2 = .ok w → Holds reg w (regRead b s addr reg).1
  write : ∀ s reg w w', Writable reg → Holds reg w s → OpEdit op reg w w' → Inv s → Inv (b.write s addr (toBe reg ++ toBe w')).1

variable {Inv : σ → Prop} {Holds : Word → Word → σ → Prop}

theorem SurvivesOp.regWrite {b : Bus σ ER EW} {cam : Cam} {addr : Byte} {op : Op F} (h : SurvivesOp b cam addr op Inv Holds) {s : σ}
    {reg w w' : Word} (hr : Writable reg) (hh : Holds reg w s) (hb : OpEdit op reg w w') (hi : Inv s) :
    Inv (regWrite b s addr reg w').1 := h.write s reg w w' hr hh hb hi

theorem setter_field (env : Env σ ER EW) (op : Op F) (h : setsControl op = true) :
    ∃ f, ∃ hf : f ≠ CtrlField.stepMode, ∃ v, (∀ w, OpEdit op 0x800D#16 w (f.set ⟨w⟩ v).raw) ∧
      ∀ d, op.exec env d = discard (driverSet env f hf v d) := by
  cases op with
  | setDataHold v => exact ⟨.dataHold, by decide, v, fun w => ⟨rfl, rfl⟩, fun _ => rfl⟩
  | setUseSubpages v =>
    exact ⟨.useSubpages, by decide, v, fun w => ⟨rfl, rfl, .useSubpages, by decide, by decide, v, rfl⟩, fun _ => rfl⟩
  | setSubpageRepeat v =>
    exact ⟨.subpageRepeat, by decide, v, fun w => ⟨rfl, rfl, .subpageRepeat, by decide, by decide, v, rfl⟩, fun _ => rfl⟩
  | setSubpage v =>
    exact ⟨.subpage, by decide, v, fun w => ⟨rfl, rfl, .subpage, by decide, by decide, v, rfl⟩, fun _ => rfl⟩
  | setFrameRate v =>
    exact ⟨.frameRate, by decide, v, fun w => ⟨rfl, rfl, .frameRate, by decide, by decide, v, rfl⟩, fun _ => rfl⟩
  | setResolution v =>
    exact ⟨.resolution, by decide, v, fun w => ⟨rfl, rfl, .resolution, by decide, by decide, v, rfl⟩, fun _ => rfl⟩
  | setAccessPattern v =>
    exact ⟨.accessPattern, by decide, v, fun w => ⟨rfl, rfl, .accessPattern, by decide, by decide, v, rfl⟩, fun _ => rfl⟩
  | _ => exact nomatch h

theorem hold_bit (w : Word) (v : Bool) : (CtrlField.dataHold.set ⟨w⟩ v).raw.getLsbD 2 = v := by
  have h := set_bits .dataHold ⟨w⟩ v 2
  rw [h, if_pos ⟨by decide, by decide⟩]
  cases v <;> rfl

theorem exec_edit {env : Env σ ER EW} {d : Driver F σ} (hs : Supported env d)
    (op : Op F) (h : SurvivesOp env.bus d.calib.cam d.addr op Inv Holds) (hi : Inv d.bus) :
    Inv (op.exec env d).1.bus := by
  have hr := h.read.regRead (reg := 0x8000#16) (Or.inl rfl) hi
  have hc := h.read.regRead (reg := 0x800D#16) (Or.inr rfl) hi
  have hks := fun w => h.knows d.bus 0x8000#16 w (Or.inl rfl) hi
  have hkc := fun w => h.knows d.bus 0x800D#16 w (Or.inr rfl) hi
  have setter : ∀ (f : CtrlField) (hf : f ≠ CtrlField.stepMode) (v : f.Val), (∀ w, OpEdit op 0x800D#16 w (f.set ⟨w⟩ v).raw) →
      Inv (driverSet env f hf v d).1.bus := by
    intro f hf v hg
    rw [driverSet_eq]
    cases hq : (regRead env.bus d.bus d.addr 0x800D#16).2 with
    | error e => exact hc
    | ok w =>
      simp only
      split
      · exact hc
      · exact h.regWrite (Or.inr rfl) (hkc w hq) (hg w) hc
  have edit : ∀ {op' : Op F} {reg w w' : Word}, op' = op → OpEdit op' reg w w' → OpEdit op reg w w' := fun e h => e ▸ h
  suffices hgoal : ∀ op', op' = op → Inv (op'.exec env d).1.bus from hgoal op rfl
  refine op_cases env (P := fun op' => op' = op → Inv (op'.exec env d).1.bus) ?_ ?_ ?_ ?_ ?_ ?_ ?_ ?_ ?_ ?_ ?_ ?_ ?_
  · intro op f hf he _ _ _ _ _
    rw [he]
    unfold discard
    rw [driverGet_eq]
    cases (regRead env.bus d.bus d.addr 0x800D#16).2 <;> exact hc
  · intro op' _ _ _ _ _ _ hset _ ht
    obtain ⟨f, hf, v, hd, he⟩ := setter_field env op' hset
    rw [he]
    exact setter f hf v fun w => edit ht (hd w)
  · intro op he _ _ _ _ _
    rw [he]
    exact hr
  · intro v ht
    show Inv (Driver.setOverwriteEnabled env v d).1.bus
    rw [setOverwrite_eq]
    cases hq : (regRead env.bus d.bus d.addr 0x8000#16).2 with
    | error e => exact hr
    | ok w =>
      simp only
      split
      · exact hr
      · exact h.regWrite (Or.inl rfl) (hks w hq) (edit ht ⟨rfl, rfl⟩) hr
  · intro ht
    show Inv (Driver.resetDataAvailable env d).1.bus
    rw [resetDataAvailable_eq]
    cases hq : (regRead env.bus d.bus d.addr 0x8000#16).2 with
    | error e => exact hr
    | ok w => exact h.regWrite (Or.inl rfl) (hks w hq) (edit ht ⟨rfl, rfl⟩) hr
  · intro v _; exact hi
  · intro _; exact hi
  · intro v _; exact hi
  · intro sp dest _
    exact SurvivesReads.image hs h.read sp dest (fun d => toRawImage env.mode d sp dest) hi
  · intro sp dest _
    exact SurvivesReads.image hs h.read sp dest (fun d => toTemperatures env.mode d sp dest) hi
  · intro dest _
    show Inv (Driver.generateImageTo env dest d).1.bus
    rw [generateImageTo_eq]
    cases (regRead env.bus d.bus d.addr 0x8000#16).2 with
    | error e => exact hr
    | ok w =>
      have hs' : Supported env { d with bus := (regRead env.bus d.bus d.addr 0x8000#16).1 } := ⟨hs.1, hs.2, hs.3⟩
      exact SurvivesReads.image hs' h.read (if w.getLsbD 0 then .one else .zero) dest
        (fun d => toTemperatures env.mode d (if w.getLsbD 0 then .one else .zero) dest) hr
  · intro dest ht
    show Inv (Driver.generateImageIfReady env dest d).1.bus
    rw [ifReady_eq]
    cases hq : (regRead env.bus d.bus d.addr 0x8000#16).2 with
    | error e => exact hr
    | ok w =>
      simp only
      split
      · rw [imageSubpage_eq]
        have hs' : Supported env { d with bus := (regRead env.bus d.bus d.addr 0x8000#16).1 } := ⟨hs.1, hs.2, hs.3⟩
        have hk := imageWith_keeps env (if w.getLsbD 0 then .one else .zero) dest
          { d with bus := (regRead env.bus d.bus d.addr 0x8000#16).1 }
          (fun d => toTemperatures env.mode d (if w.getLsbD 0 then .one else .zero) dest)
        have hm := SurvivesReads.image hs' (h.read.and (h.keeps 0x8000#16 w)) (if w.getLsbD 0 then .one else .zero) dest
          (fun d => toTemperatures env.mode d (if w.getLsbD 0 then .one else .zero) dest) ⟨hr, hks w hq⟩
        generalize imageWith env (if w.getLsbD 0 then .one else .zero) dest
          { d with bus := (regRead env.bus d.bus d.addr 0x8000#16).1 }
          (fun d => toTemperatures env.mode d (if w.getLsbD 0 then .one else .zero) dest) = q at hk hm ⊢
        obtain ⟨d1, dest1, _ | e | _⟩ := q
        · simp only at hk hm ⊢
          have ha : d1.addr = d.addr := hk.1.addr
          rw [ha]
          exact h.regWrite (Or.inl rfl) hm.2 (edit ht ⟨rfl, rfl⟩) hm.1
        · exact hm.1
        · exact hm.1
      · exact hr
  · intro fuel ht
    show Inv (Driver.synchronize env fuel d).1.bus
    rw [Props.synchronize_eq]
    cases hq : (regRead env.bus d.bus d.addr 0x8000#16).2 with
    | error e => exact hr
    | ok w =>
      simp only
      have hw := h.regWrite (reg := 0x8000#16) (w' := Props.syncWord w) (Or.inl rfl) (hks w hq) (edit ht ⟨rfl, rfl⟩) hr
      cases (regWrite env.bus (regRead env.bus d.bus d.addr 0x8000#16).1 d.addr 0x8000#16 (Props.syncWord w)).2 with
      | some e => exact hw
      | none => exact SurvivesReads.poll fuel (d := { d with bus := (regWrite env.bus
          (regRead env.bus d.bus d.addr 0x8000#16).1 d.addr 0x8000#16 (Props.syncWord w)).1 }) h.read hw

/-! ### Gentle calls -/

/-- A word for a register that does not end the holding of data, if `w` was in it. -/
def Gentle (reg w w' : Word) : Prop :=
  (reg = 0x8000#16 → w.getLsbD 4 = false → w'.getLsbD 4 = false) ∧ (reg = 0x800D#16 → w.getLsbD 2 = true → w'.getLsbD 2 = true)

theorem status_gentle {w w' : Word} (h : w.getLsbD 4 = false → w'.getLsbD 4 = false) : Gentle 0x8000#16 w w' :=
  ⟨fun _ => h, fun hc => absurd hc (by decide)⟩

theorem control_gentle {w w' : Word} (h : w.getLsbD 2 = true → w'.getLsbD 2 = true) : Gentle 0x800D#16 w w' :=
  ⟨fun hc => absurd hc (by decide), fun _ => h⟩

theorem set_gentle (f : CtrlField) (hf : f ≠ .stepMode) (hd : f ≠ .dataHold) (w : Word) (v : f.Val) :
    Gentle 0x800D#16 w (f.set ⟨w⟩ v).raw := by
  refine control_gentle fun hw => ?_
  have h := set_bits f ⟨w⟩ v 2
  rw [h, if_neg]
  · exact hw
  · intro hc
    unfold CtrlField.Covers at hc
    cases f <;> simp only [CtrlField.lo, CtrlField.width] at hc <;> first | omega | exact absurd rfl hf | exact absurd rfl hd

theorem edit_gentle {op : Op F} (ht : ¬ Thaws op) {reg w w' : Word} (h : OpEdit op reg w w') : Gentle reg w w' := by
  cases op with
  | setOverwriteEnabled v =>
    obtain ⟨rfl, rfl⟩ := h
    cases v with
    | true => exact absurd trivial ht
    | false => exact status_gentle fun _ => by rw [setOverwrite_bits, if_pos rfl]
  | resetDataAvailable =>
    obtain ⟨rfl, rfl⟩ := h
    exact status_gentle fun h4 => by rw [resetNewData_bits]; exact h4
  | generateImageIfReady _ =>
    obtain ⟨rfl, rfl⟩ := h
    exact status_gentle fun h4 => by rw [resetNewData_bits]; exact h4
  | synchronize _ => exact absurd trivial ht
  | setDataHold v =>
    obtain ⟨rfl, rfl⟩ := h
    cases v with
    | false => exact absurd trivial ht
    | true => exact control_gentle fun _ => hold_bit w true
  | _ =>
    obtain ⟨_, rfl, f, h1, h2, v, rfl⟩ := h
    exact set_gentle f h1 h2 w v

/-- Calls that do not write the status register may write the control register. -/
theorem edit_control {op : Op F} (ht : ¬ WritesStatus op) {reg w w' : Word} (h : OpEdit op reg w w') : reg = 0x800D#16 := by
  cases op with
  | setOverwriteEnabled v => exact absurd trivial ht
  | resetDataAvailable => exact absurd trivial ht
  | generateImageIfReady _ => exact absurd trivial ht
  | synchronize _ => exact absurd trivial ht
  | setDataHold v => exact h.1
  | _ => exact h.2.1

/-! ### A camera that runs freely -/

theorem _root_.Mlx.Spec.Runs.held {M M' : Word → Word} (h : Runs M M') (hh : Held M) : Held M' :=
  ⟨by rw [h.fixed _ (by unfold Volatile; decide)]; exact hh.1, by rw [h.overwrite]; exact hh.2⟩

/-- What is known of a register after it was read. -/
def Read4 (mem : σ → Word → Word) (reg w : Word) (s : σ) : Prop :=
  (reg = 0x8000#16 → w.getLsbD 4 = (mem s 0x8000#16).getLsbD 4) ∧ (reg = 0x800D#16 → w = mem s 0x800D#16)

variable {b : Bus σ ER EW} {addr : Byte} {mem : σ → Word → Word}

theorem free_regRead {runs : (Word → Word) → (Word → Word) → Prop} (h : FreeRunning runs b addr mem) (s : σ) (reg : Word) :
    runs (mem s) (mem (regRead b s addr reg).1) ∧
      ∀ w, (regRead b s addr reg).2 = .ok w → w = mem s reg := by
  refine ⟨h.read s reg _, ?_⟩
  intro w hw
  have hd := h.read_data s reg [0#8, 0#8]
  unfold regRead at hw
  simp only at hw
  generalize b.writeRead s addr (toBe reg) [0#8, 0#8] = q at hd hw
  obtain ⟨s', buf, e⟩ := q
  cases e with
  | some e => cases hw
  | none =>
    have hb := hd rfl
    simp only at hb hw
    rw [hb] at hw
    rw [show ([0#8, 0#8] : List Byte).length = 2 from rfl, memBytes_two] at hw
    have := be16_toBe (mem s reg)
    simp only [toBe, List.getD_cons_zero, List.getD_cons_succ] at hw
    rw [this] at hw
    exact (Except.ok.inj hw).symm

theorem free_write {runs : (Word → Word) → (Word → Word) → Prop} (h : FreeRunning runs b addr mem) (s : σ) (reg v : Word) :
    runs (mem s) (mem (b.write s addr (toBe reg ++ toBe v)).1) ∨
    runs (setWord (mem s) reg v) (mem (b.write s addr (toBe reg ++ toBe v)).1) := by
  by_cases he : (b.write s addr (toBe reg ++ toBe v)).2 = none
  · exact Or.inr (h.write_ok s reg v he)
  · exact h.write_err s reg v he

/-- A property of memories that running preserves, and gentle writes. -/
structure Stable (P : (Word → Word) → Prop) : Prop where
  runs : ∀ M M', Runs M M' → P M → P M'
  write : ∀ M reg w w', Writable reg → (reg = 0x8000#16 → w.getLsbD 4 = (M 0x8000#16).getLsbD 4) →
    (reg = 0x800D#16 → w = M 0x800D#16) → Gentle reg w w' → P M → P (setWord M reg w')

theorem stable_gentle (h : FreeRunning Runs b addr mem) (cam : Cam) {P : (Word → Word) → Prop} (hP : Stable P) {op : Op F}
    (ht : ¬ Thaws op) : SurvivesOp b cam addr op (fun s => P (mem s)) (Read4 mem) where
  read s base buf _ hi := hP.runs _ _ (h.read s base buf) hi
  keeps reg w s base buf _ hi := by
    have hr := h.read s base buf
    exact ⟨fun e => (hi.1 e).trans hr.overwrite.symm, fun e => (hi.2 e).trans (hr.fixed _ (by unfold Volatile; decide)).symm⟩
  knows s reg w _ _ hw := by
    obtain ⟨hr, hv⟩ := free_regRead h s reg
    have hv := hv w hw
    refine ⟨fun e => ?_, fun e => ?_⟩
    · rw [hr.overwrite, hv, e]
    · rw [hr.fixed _ (by unfold Volatile; decide), hv, e]
  write s reg w w' hreg hh hg hi := by
    rcases free_write h s reg w' with hr | hr
    · exact hP.runs _ _ hr hi
    · exact hP.runs _ _ hr (hP.write _ reg w w' hreg hh.1 hh.2 (edit_gentle ht hg) hi)

theorem held_stable (M : Word → Word) : Stable fun M' => Held M' ∧ ∀ a : Word, a.toNat < 0x0800 → M' a = M a where
  runs M1 M2 hr hi := by
    refine ⟨hr.held hi.1, fun a ha => ?_⟩
    by_cases h4 : 0x0400 ≤ a.toNat
    · rw [hr.hold hi.1 a h4 ha, hi.2 a ha]
    · rw [hr.fixed a, hi.2 a ha]
      rintro (hc | hc)
      · exact h4 hc.1
      · rw [hc] at ha; revert ha; decide
  write M1 reg w w' hreg h1 h2 hg hi := by
    constructor
    · rcases hreg with rfl | rfl
      · refine ⟨?_, ?_⟩
        · rw [setWord, if_neg (by decide)]; exact hi.1.1
        · rw [setWord, if_pos rfl]
          exact hg.1 rfl ((h1 rfl).trans hi.1.2)
      · refine ⟨?_, ?_⟩
        · rw [setWord, if_pos rfl]
          exact hg.2 rfl (by rw [h2 rfl]; exact hi.1.1)
        · rw [setWord, if_neg (by decide)]; exact hi.1.2
    · intro a ha
      rw [setWord, if_neg]
      · exact hi.2 a ha
      · rintro rfl
        rcases hreg with h | h <;> rw [h] at ha <;> revert ha <;> decide

theorem dataHold_stable : Stable fun M => (M 0x800D#16).getLsbD 2 = true where
  runs M1 M2 hr hi := by rw [hr.fixed _ (by unfold Volatile; decide)]; exact hi
  write M1 reg w w' hreg h1 h2 hg hi := by
    rcases hreg with rfl | rfl
    · rw [setWord, if_neg (by decide)]; exact hi
    · rw [setWord, if_pos rfl]
      exact hg.2 rfl (by rw [h2 rfl]; exact hi)

theorem noOverwrite_stable : Stable fun M => (M 0x8000#16).getLsbD 4 = false where
  runs M1 M2 hr hi := by rw [hr.overwrite]; exact hi
  write M1 reg w w' hreg h1 h2 hg hi := by
    rcases hreg with rfl | rfl
    · rw [setWord, if_pos rfl]
      exact hg.1 rfl ((h1 rfl).trans hi)
    · rw [setWord, if_neg (by decide)]; exact hi

end Mlx.Proofs
