import Verif.Proofs.Ops
/-
What each driver method does to static memory.
-/
set_option linter.unusedSectionVars false
set_option autoImplicit false
namespace Mlx.Proofs
open Mlx Mlx.Spec F32Ops
variable {F σ ER EW : Type} [F32Ops F] {mem : σ → Word → Word}

theorem static_recorded {b : Bus σ ER EW} {addr : Byte} (h : StaticMemory b addr mem) :
    StaticMemory (recorded b) addr (fun s => mem s.1) where
  read_data s base buf he := h.read_data s.1 base buf he
  read_mem s base buf := h.read_mem s.1 base buf
  write_ok s reg v he := h.write_ok s.1 reg v he
  write_err s reg v he := h.write_err s.1 reg v he

/-- Two memories that agree everywhere except at `reg`. -/
def SameExcept (reg : Word) (M M' : Word → Word) : Prop := ∀ a, a ≠ reg → M' a = M a

theorem static_write_except {b : Bus σ ER EW} {addr : Byte} (h : StaticMemory b addr mem) (s : σ) (reg w : Word)
    (M : Word → Word) (hM : mem s = M) : SameExcept reg M (mem (regWrite b s addr reg w).1) := by
  intro a ha
  rw [static_regWrite h]
  cases (regWrite b s addr reg w).2 with
  | none => simp only [setWord, if_neg ha, hM]
  | some e => simp only [hM]

theorem SameExcept.of_eq {reg : Word} {M M' : Word → Word} (h : M' = M) : SameExcept reg M M' :=
  fun a _ => by rw [h]

theorem static_image {env : Env σ ER EW} {d : Driver F σ} (hs : Supported env d)
    (h : StaticMemory env.bus d.addr mem) (sp : Subpage) (dest : List F)
    (conv : Driver F σ → List Byte → RamData → Res (Err ER EW) (F × List F)) :
    mem (imageWith env sp dest d conv).1.bus = mem d.bus := by
  rw [(imageWith_keeps env sp dest d conv).2.1]
  exact (static_readRam hs h sp).1

theorem static_poll {env : Env σ ER EW} (fuel : Nat) {d : Driver F σ} (h : StaticMemory env.bus d.addr mem) :
    mem (Driver.pollStatus env fuel d).1.bus = mem d.bus := by
  induction fuel generalizing d with
  | zero => rfl
  | succ n ih =>
    unfold Driver.pollStatus
    rw [dm_bind, statusRegister_eq]
    have hm := (static_regRead h d.bus 0x8000#16).1
    cases (regRead env.bus d.bus d.addr 0x8000#16).2 with
    | error e => exact hm
    | ok w =>
      simp only
      split
      · exact hm
      · rw [ih (d := { d with bus := (regRead env.bus d.bus d.addr 0x8000#16).1 }) h]
        exact hm

/-- On static memory, a method that does not use the control register leaves all memory but the status register
alone, and the cached settings with it. -/
theorem exec_static_other {env : Env σ ER EW} {d : Driver F σ} (hs : Supported env d)
    (h : StaticMemory env.bus d.addr mem) (op : Op F) (hu : usesControl op = false) :
    SameExcept 0x8000#16 (mem d.bus) (mem (op.exec env d).1.bus) ∧
    (op.exec env d).1.accessPattern = d.accessPattern ∧ (op.exec env d).1.resCorr = d.resCorr := by
  have hr := (static_regRead h d.bus 0x8000#16).1
  revert hu
  refine op_cases env (P := fun op => usesControl op = false →
    SameExcept 0x8000#16 (mem d.bus) (mem (op.exec env d).1.bus) ∧
    (op.exec env d).1.accessPattern = d.accessPattern ∧ (op.exec env d).1.resCorr = d.resCorr)
    ?_ ?_ ?_ ?_ ?_ ?_ ?_ ?_ ?_ ?_ ?_ ?_ ?_ op
  · intro op f hf he _ _ _ hu hu'; rw [hu] at hu'; cases hu'
  · intro op f hf v he _ _ _ hu hu'; rw [hu] at hu'; cases hu'
  · intro op he _ _ _ _ _
    rw [he]
    exact ⟨SameExcept.of_eq hr, rfl, rfl⟩
  · intro v _
    show SameExcept _ _ (mem (Driver.setOverwriteEnabled env v d).1.bus) ∧
      (Driver.setOverwriteEnabled env v d).1.accessPattern = _ ∧ (Driver.setOverwriteEnabled env v d).1.resCorr = _
    rw [setOverwrite_eq]
    cases (regRead env.bus d.bus d.addr 0x8000#16).2 with
    | error e => exact ⟨SameExcept.of_eq hr, rfl, rfl⟩
    | ok w =>
      simp only
      split
      · exact ⟨SameExcept.of_eq hr, rfl, rfl⟩
      · exact ⟨static_write_except h _ _ _ _ hr, rfl, rfl⟩
  · intro _
    show SameExcept _ _ (mem (Driver.resetDataAvailable env d).1.bus) ∧
      (Driver.resetDataAvailable env d).1.accessPattern = _ ∧ (Driver.resetDataAvailable env d).1.resCorr = _
    rw [resetDataAvailable_eq]
    cases (regRead env.bus d.bus d.addr 0x8000#16).2 with
    | error e => exact ⟨SameExcept.of_eq hr, rfl, rfl⟩
    | ok w => exact ⟨static_write_except h _ _ _ _ hr, rfl, rfl⟩
  · intro v _; exact ⟨SameExcept.of_eq rfl, rfl, rfl⟩
  · intro _; exact ⟨SameExcept.of_eq rfl, rfl, rfl⟩
  · intro v _; exact ⟨SameExcept.of_eq rfl, rfl, rfl⟩
  · intro sp dest _
    have hk := imageWith_keeps env sp dest d (fun d => toRawImage env.mode d sp dest)
    exact ⟨SameExcept.of_eq (static_image hs h sp dest (fun d => toRawImage env.mode d sp dest)), hk.2.2.1, hk.2.2.2⟩
  · intro sp dest _
    have hk := imageWith_keeps env sp dest d (fun d => toTemperatures env.mode d sp dest)
    exact ⟨SameExcept.of_eq (static_image hs h sp dest (fun d => toTemperatures env.mode d sp dest)), hk.2.2.1, hk.2.2.2⟩
  · intro dest _
    show SameExcept _ _ (mem (Driver.generateImageTo env dest d).1.bus) ∧
      (Driver.generateImageTo env dest d).1.accessPattern = _ ∧ (Driver.generateImageTo env dest d).1.resCorr = _
    rw [generateImageTo_eq]
    cases (regRead env.bus d.bus d.addr 0x8000#16).2 with
    | error e => exact ⟨SameExcept.of_eq hr, rfl, rfl⟩
    | ok w =>
      simp only
      rw [imageSubpage_eq]
      have hs' : Supported env { d with bus := (regRead env.bus d.bus d.addr 0x8000#16).1 } := ⟨hs.1, hs.2, hs.3⟩
      have hk := imageWith_keeps env (if w.getLsbD 0 then .one else .zero) dest
        { d with bus := (regRead env.bus d.bus d.addr 0x8000#16).1 }
        (fun d => toTemperatures env.mode d (if w.getLsbD 0 then .one else .zero) dest)
      have hm := static_image hs' h (if w.getLsbD 0 then .one else .zero) dest
        (fun d => toTemperatures env.mode d (if w.getLsbD 0 then .one else .zero) dest)
      exact ⟨SameExcept.of_eq (hm.trans hr), hk.2.2.1, hk.2.2.2⟩
  · intro dest _
    show SameExcept _ _ (mem (Driver.generateImageIfReady env dest d).1.bus) ∧
      (Driver.generateImageIfReady env dest d).1.accessPattern = _ ∧
      (Driver.generateImageIfReady env dest d).1.resCorr = _
    rw [ifReady_eq]
    cases (regRead env.bus d.bus d.addr 0x8000#16).2 with
    | error e => exact ⟨SameExcept.of_eq hr, rfl, rfl⟩
    | ok w =>
      simp only
      split
      · rw [imageSubpage_eq]
        have hs' : Supported env { d with bus := (regRead env.bus d.bus d.addr 0x8000#16).1 } := ⟨hs.1, hs.2, hs.3⟩
        have hk := imageWith_keeps env (if w.getLsbD 0 then .one else .zero) dest
          { d with bus := (regRead env.bus d.bus d.addr 0x8000#16).1 }
          (fun d => toTemperatures env.mode d (if w.getLsbD 0 then .one else .zero) dest)
        have hm := static_image hs' h (if w.getLsbD 0 then .one else .zero) dest
          (fun d => toTemperatures env.mode d (if w.getLsbD 0 then .one else .zero) dest)
        generalize imageWith env (if w.getLsbD 0 then .one else .zero) dest
          { d with bus := (regRead env.bus d.bus d.addr 0x8000#16).1 }
          (fun d => toTemperatures env.mode d (if w.getLsbD 0 then .one else .zero) dest) = q at hk hm ⊢
        obtain ⟨d1, dest1, _ | e | _⟩ := q
        · simp only at hk hm ⊢
          have ha : d1.addr = d.addr := hk.1.addr
          have h' : StaticMemory env.bus d1.addr mem := by rw [ha]; exact h
          exact ⟨static_write_except h' _ _ _ _ (hm.trans hr), hk.2.2.1, hk.2.2.2⟩
        · exact ⟨SameExcept.of_eq (hm.trans hr), hk.2.2.1, hk.2.2.2⟩
        · exact ⟨SameExcept.of_eq (hm.trans hr), hk.2.2.1, hk.2.2.2⟩
      · exact ⟨SameExcept.of_eq hr, rfl, rfl⟩
  · intro fuel _
    show SameExcept _ _ (mem (Driver.synchronize env fuel d).1.bus) ∧
      (Driver.synchronize env fuel d).1.accessPattern = _ ∧ (Driver.synchronize env fuel d).1.resCorr = _
    have hk := synchronize_keeps env fuel d
    refine ⟨?_, by rw [hk], by rw [hk]⟩
    rw [Props.synchronize_eq]
    cases (regRead env.bus d.bus d.addr 0x8000#16).2 with
    | error e => exact SameExcept.of_eq hr
    | ok w =>
      simp only
      have hw := static_write_except h (regRead env.bus d.bus d.addr 0x8000#16).1 0x8000#16 (Props.syncWord w) _ hr
      cases (regWrite env.bus (regRead env.bus d.bus d.addr 0x8000#16).1 d.addr 0x8000#16 (Props.syncWord w)).2 with
      | some e => exact hw
      | none =>
        simp only
        rw [static_poll (mem := mem) fuel (d := { d with bus := (regWrite env.bus
          (regRead env.bus d.bus d.addr 0x8000#16).1 d.addr 0x8000#16 (Props.syncWord w)).1 }) h]
        exact hw

/-- On static memory, a method that uses the control register leaves all other memory alone; unless it fails, the
cached settings are afterwards those of the control register; if the read fails they are kept, with the
control register; if a write fails, the control register is kept. -/
theorem exec_static_control {env : Env σ ER EW} {d : Driver F σ}
    (h : StaticMemory env.bus d.addr mem) (op : Op F) (hu : usesControl op = true) :
    SameExcept 0x800D#16 (mem d.bus) (mem (op.exec env d).1.bus) ∧
    (((op.exec env d).2 = .ok () ∧ Caches (op.exec env d).1 (mem (op.exec env d).1.bus 0x800D#16)) ∨
     (∃ e, (op.exec env d).2 = .err (.i2cWriteRead e) ∧ mem (op.exec env d).1.bus = mem d.bus ∧
       (op.exec env d).1.accessPattern = d.accessPattern ∧ (op.exec env d).1.resCorr = d.resCorr) ∨
     (setsControl op = true ∧ ∃ e, (op.exec env d).2 = .err (.i2cWrite e) ∧
       mem (op.exec env d).1.bus = mem d.bus)) := by
  obtain ⟨hr, hv⟩ := static_regRead h d.bus 0x800D#16
  revert hu
  refine op_cases env (P := fun op => usesControl op = true →
    SameExcept 0x800D#16 (mem d.bus) (mem (op.exec env d).1.bus) ∧
    (((op.exec env d).2 = .ok () ∧ Caches (op.exec env d).1 (mem (op.exec env d).1.bus 0x800D#16)) ∨
     (∃ e, (op.exec env d).2 = .err (.i2cWriteRead e) ∧ mem (op.exec env d).1.bus = mem d.bus ∧
       (op.exec env d).1.accessPattern = d.accessPattern ∧ (op.exec env d).1.resCorr = d.resCorr) ∨
     (setsControl op = true ∧ ∃ e, (op.exec env d).2 = .err (.i2cWrite e) ∧
       mem (op.exec env d).1.bus = mem d.bus)))
    ?_ ?_ ?_ ?_ ?_ ?_ ?_ ?_ ?_ ?_ ?_ ?_ ?_ op
  · intro op f hf he _ _ _ _ _
    rw [he]
    unfold discard
    rw [driverGet_eq]
    generalize regRead env.bus d.bus d.addr 0x800D#16 = q at hr hv ⊢
    obtain ⟨s', e | w⟩ := q
    · exact ⟨SameExcept.of_eq hr, Or.inr (Or.inl ⟨e, rfl, hr, rfl, rfl⟩)⟩
    · have hw := hv w rfl
      simp only at hr
      refine ⟨SameExcept.of_eq hr, Or.inl ⟨rfl, ?_⟩⟩
      show Caches _ (mem s' 0x800D#16)
      rw [hr, ← hw]
      exact ⟨rfl, rfl⟩
  · intro op f hf v he _ _ hc _ _
    rw [he, hc]
    unfold discard
    rw [driverSet_eq]
    generalize regRead env.bus d.bus d.addr 0x800D#16 = q at hr hv ⊢
    obtain ⟨s', e | w⟩ := q
    · exact ⟨SameExcept.of_eq hr, Or.inr (Or.inl ⟨e, rfl, hr, rfl, rfl⟩)⟩
    · have hw := hv w rfl
      simp only at hr ⊢
      by_cases hcode : f.code (f.valueIn w) = f.code v
      · rw [if_pos hcode]
        refine ⟨SameExcept.of_eq hr, Or.inl ⟨rfl, ?_⟩⟩
        show Caches _ (mem s' 0x800D#16)
        rw [hr, ← hw]
        exact ⟨rfl, rfl⟩
      · rw [if_neg hcode]
        have hwr := static_regWrite h s' 0x800D#16 (f.set ⟨w⟩ v).raw
        have hex := static_write_except h s' 0x800D#16 (f.set ⟨w⟩ v).raw _ hr
        generalize regWrite env.bus s' d.addr 0x800D#16 (f.set ⟨w⟩ v).raw = q at hwr hex ⊢
        obtain ⟨s'', _ | e⟩ := q
        · refine ⟨hex, Or.inl ⟨rfl, ?_⟩⟩
          show Caches _ (mem s'' 0x800D#16)
          simp only at hwr
          rw [hwr]
          simp only [setWord, if_true]
          exact ⟨rfl, rfl⟩
        · exact ⟨hex, Or.inr (Or.inr ⟨trivial, e, rfl, by simpa only [hr] using hwr⟩)⟩
  · intro op _ _ _ _ hu hu'; rw [hu] at hu'; cases hu'
  all_goals (intros; rename_i hu; cases hu)

end Mlx.Proofs
