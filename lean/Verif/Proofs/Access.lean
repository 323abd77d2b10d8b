import Verif.Proofs.StaticOps
import Verif.Spec.Access
/-
Every bus access of a driver call is documented, stated as: what documented accesses preserve, calls preserve.
-/
set_option linter.unusedSectionVars false
set_option autoImplicit false
namespace Mlx.Proofs
open Mlx Mlx.Spec F32Ops
variable {F σ ER EW : Type} [F32Ops F]

/-- `Inv` survives the documented accesses. -/
structure Survives (b : Bus σ ER EW) (cam : Cam) (addr : Byte) (Inv : σ → Prop) : Prop where
  read : ∀ s base buf, ReadsDocumented cam base buf.length → Inv s → Inv (b.writeRead s addr (toBe base) buf).1
  write : ∀ s reg w, Writable reg → Inv s → Inv (b.write s addr (toBe reg ++ toBe w)).1

variable {Inv : σ → Prop} {Holds : Word → Word → σ → Prop}

/-- `Inv` survives the documented reads. -/
def SurvivesReads (b : Bus σ ER EW) (cam : Cam) (addr : Byte) (Inv : σ → Prop) : Prop :=
  ∀ s base buf, ReadsDocumented cam base buf.length → Inv s → Inv (b.writeRead s addr (toBe base) buf).1

/-- `Inv` survives the documented reads, and writes that change a word received from the register in documented bits
only; `Holds s reg w` is what is then known to connect the register and the word. -/
structure SurvivesEdits (b : Bus σ ER EW) (cam : Cam) (addr : Byte) (Inv : σ → Prop) (Holds : Word → Word → σ → Prop) :
    Prop where
  read : SurvivesReads b cam addr Inv
  keeps : ∀ reg w, SurvivesReads b cam addr (Holds reg w)
  knows : ∀ s reg w, Writable reg → Inv s → (regRead b s addr reg).2 = .ok w → Holds reg w (regRead b s addr reg).1
  write : ∀ s reg w w', Writable reg → Holds reg w s → OnlyBits (Editable reg) w w' → Inv s →
    Inv (b.write s addr (toBe reg ++ toBe w')).1


theorem SurvivesReads.regRead {b : Bus σ ER EW} {cam : Cam} {addr : Byte} (h : SurvivesReads b cam addr Inv) {s : σ} {reg : Word}
    (hr : Writable reg) (hi : Inv s) : Inv (regRead b s addr reg).1 :=
  h s reg [0#8, 0#8] (Or.inl ⟨rfl, hr⟩) hi

theorem SurvivesReads.readRanges {b : Bus σ ER EW} {cam : Cam} {addr : Byte} (h : SurvivesReads b cam addr Inv)
    (rs : List PixelRange) (hd : ∀ r ∈ rs, ReadsDocumented cam (BitVec.ofNat 16 r.startAddress) r.length)
    (s : σ) (buf : List Byte) (hi : Inv s) : Inv (readRanges b addr rs s buf).1 := by
  induction rs generalizing s buf with
  | nil => exact hi
  | cons r rs ih =>
    unfold Mlx.readRanges
    split
    · rename_i hfit
      have hsub : ((buf.drop r.bufferOffset).take r.length).length = r.length := by
        rw [List.length_take, List.length_drop]; omega
      have h1 := h s (BitVec.ofNat 16 r.startAddress) ((buf.drop r.bufferOffset).take r.length)
        (by rw [hsub]; exact hd r (List.mem_cons_self ..)) hi
      generalize b.writeRead s addr (toBe (BitVec.ofNat 16 r.startAddress))
        ((buf.drop r.bufferOffset).take r.length) = q at h1 ⊢
      obtain ⟨s1, sub, _ | e⟩ := q
      · exact ih (fun r hr => hd r (List.mem_cons_of_mem _ hr)) s1 _ h1
      · exact h1
    · exact hi

theorem SurvivesReads.ramValue {b : Bus σ ER EW} {cam : Cam} {addr : Byte} (h : SurvivesReads b cam addr Inv) {s : σ} {a : Word}
    (ha : ReadsDocumented cam a 2) (hi : Inv s) : Inv (readRamValue b s addr a).1 := by
  have h1 := h s a [0#8, 0#8] ha hi
  unfold readRamValue Bus.read
  generalize b.writeRead s addr (toBe a) [0#8, 0#8] = q at h1 ⊢
  obtain ⟨s1, bytes, _ | e⟩ := q
  · simp only
    split <;> simp_all
  · exact h1

theorem SurvivesReads.ramData {b : Bus σ ER EW} {cam : Cam} {addr : Byte} (h : SurvivesReads b cam addr Inv) {s : σ} {sp : Subpage}
    (hd : ∀ a ∈ [cam.tAVbe, cam.tAPtat, cam.vddPixel, cam.gain, cam.compensationPixel sp], ReadsDocumented cam a 2)
    (hi : Inv s) : Inv (ramDataFromI2c cam b s addr sp).1 := by
  unfold ramDataFromI2c
  have h1 := h.ramValue (s := s) (hd cam.tAVbe (by simp)) hi
  generalize readRamValue b s addr cam.tAVbe = q at h1 ⊢
  obtain ⟨s1, v | e | _⟩ := q
  · have h2 := h.ramValue (s := s1) (hd cam.tAPtat (by simp)) h1
    simp only
    generalize readRamValue b s1 addr cam.tAPtat = q at h2 ⊢
    obtain ⟨s2, v | e | _⟩ := q
    · have h3 := h.ramValue (s := s2) (hd cam.vddPixel (by simp)) h2
      simp only
      generalize readRamValue b s2 addr cam.vddPixel = q at h3 ⊢
      obtain ⟨s3, v | e | _⟩ := q
      · have h4 := h.ramValue (s := s3) (hd cam.gain (by simp)) h3
        simp only
        generalize readRamValue b s3 addr cam.gain = q at h4 ⊢
        obtain ⟨s4, v | e | _⟩ := q
        · have h5 := h.ramValue (s := s4) (hd (cam.compensationPixel sp) (by simp)) h4
          simp only
          generalize readRamValue b s4 addr (cam.compensationPixel sp) = q at h5 ⊢
          obtain ⟨s5, v | e | _⟩ := q <;> exact h5
        · exact h4
        · exact h4
      · exact h3
      · exact h3
    · exact h2
    · exact h2
  · exact h1
  · exact h1

/-- The reads of a frame are documented. -/
theorem frame_documented {env : Env σ ER EW} {d : Driver F σ} (hs : Supported env d) (sp : Subpage) (ap : AccessPattern) :
    ∃ rs, d.calib.cam.collectRanges env.mode sp ap env.height = .ok rs ∧
      (∀ r ∈ rs, ReadsDocumented d.calib.cam (BitVec.ofNat 16 r.startAddress) r.length) ∧
      ∀ a ∈ [d.calib.cam.tAVbe, d.calib.cam.tAPtat, d.calib.cam.vddPixel, d.calib.cam.gain,
        d.calib.cam.compensationPixel sp], ReadsDocumented d.calib.cam a 2 := by
  rw [hs.height]
  rcases hs.cam with hc | hc
  · obtain ⟨rs, h1, _, h2, _⟩ := Props.C14_mlx90640_ram_ranges env.mode sp ap
    rw [hc]
    refine ⟨rs, h1, fun r hr => Or.inr ?_, fun a ha => Or.inr ?_⟩
    · obtain ⟨_, h3, hp, h4, h5, _⟩ := h2 r hr
      rw [BitVec.toNat_ofNat, Nat.mod_eq_of_lt (a := r.startAddress) (b := 2 ^ 16) (by omega)]
      refine ⟨hp, h3, h4, ?_⟩
      show _ ≤ 0x0740
      omega
    · have he : ramEnd Mlx90640.cam = 0x0740 := rfl
      rw [he]
      cases sp <;>
      · simp only [List.mem_cons, List.not_mem_nil, or_false, Mlx90640.cam] at ha
        rcases ha with rfl | rfl | rfl | rfl | rfl <;> decide
  · obtain ⟨rs, h1, _, h2, _⟩ := Props.C15_mlx90641_ram_ranges env.mode sp ap
    rw [hc]
    refine ⟨rs, h1, fun r hr => Or.inr ?_, fun a ha => Or.inr ?_⟩
    · obtain ⟨_, h3, hp, h4, h5, _⟩ := h2 r hr
      rw [BitVec.toNat_ofNat, Nat.mod_eq_of_lt (a := r.startAddress) (b := 2 ^ 16) (by omega)]
      refine ⟨hp, h3, h4, ?_⟩
      show _ ≤ 0x05C0
      omega
    · have he : ramEnd Mlx90641.cam = 0x05C0 := rfl
      rw [he]
      cases sp <;>
      · simp only [List.mem_cons, List.not_mem_nil, or_false, Mlx90641.cam] at ha
        rcases ha with rfl | rfl | rfl | rfl | rfl <;> decide

theorem SurvivesReads.image {env : Env σ ER EW} {d : Driver F σ} (hs : Supported env d)
    (h : SurvivesReads env.bus d.calib.cam d.addr Inv) (sp : Subpage) (dest : List F)
    (conv : Driver F σ → List Byte → RamData → Res (Err ER EW) (F × List F)) (hi : Inv d.bus) :
    Inv (imageWith env sp dest d conv).1.bus := by
  rw [(imageWith_keeps env sp dest d conv).2.1]
  obtain ⟨rs, hrs, hd1, hd2⟩ := frame_documented hs sp d.accessPattern
  unfold Driver.readRam Mlx.readRam
  rw [hrs]
  simp only
  have h1 := h.readRanges rs hd1 d.bus d.pixelBuf hi
  generalize Mlx.readRanges env.bus d.addr rs d.bus d.pixelBuf = q at h1 ⊢
  obtain ⟨s1, px, _ | e | _⟩ := q
  · exact h.ramData hd2 h1
  · exact h1
  · exact h1

theorem SurvivesReads.poll {env : Env σ ER EW} (fuel : Nat) {d : Driver F σ} (h : SurvivesReads env.bus d.calib.cam d.addr Inv)
    (hi : Inv d.bus) : Inv (Driver.pollStatus env fuel d).1.bus := by
  induction fuel generalizing d with
  | zero => exact hi
  | succ n ih =>
    unfold Driver.pollStatus
    rw [dm_bind, statusRegister_eq]
    have hm := h.regRead (reg := 0x8000#16) (Or.inl rfl) hi
    cases (Proofs.regRead env.bus d.bus d.addr 0x8000#16).2 with
    | error e => exact hm
    | ok w =>
      simp only
      split
      · exact hm
      · exact ih (d := { d with bus := (Proofs.regRead env.bus d.bus d.addr 0x8000#16).1 }) h hm

theorem SurvivesReads.and {b : Bus σ ER EW} {cam : Cam} {addr : Byte} {Inv Inv' : σ → Prop}
    (h : SurvivesReads b cam addr Inv) (h' : SurvivesReads b cam addr Inv') :
    SurvivesReads b cam addr fun s => Inv s ∧ Inv' s :=
  fun s base buf hd hi => ⟨h s base buf hd hi.1, h' s base buf hd hi.2⟩

theorem set_editable (f : CtrlField) (hf : f ≠ .stepMode) (w : Word) (v : f.Val) :
    OnlyBits (Editable 0x800D#16) w (f.set ⟨w⟩ v).raw := by
  intro i hi
  have h := set_bits f ⟨w⟩ v i
  rw [h, if_neg]
  intro hc
  refine hi (Or.inr ⟨rfl, ?_⟩)
  unfold CtrlField.Covers at hc
  cases f <;> simp only [CtrlField.lo, CtrlField.width] at hc <;> first | omega | exact absurd rfl hf

theorem status_editable {w w' : Word} (h : ∀ i, i ≠ 3 → i ≠ 4 → i ≠ 5 → w'.getLsbD i = w.getLsbD i) :
    OnlyBits (Editable 0x8000#16) w w' := by
  intro i hi
  refine h i ?_ ?_ ?_ <;> rintro rfl <;> exact hi (Or.inl ⟨rfl, by decide, by decide⟩)

theorem overwrite_editable (w : Word) (v : Bool) :
    OnlyBits (Editable 0x8000#16) w (StatusReg.setOverwriteEnabled ⟨w⟩ v).raw :=
  status_editable fun i _ h4 _ => by rw [setOverwrite_bits, if_neg h4]

theorem reset_editable (w : Word) : OnlyBits (Editable 0x8000#16) w (StatusReg.resetNewData ⟨w⟩).raw :=
  status_editable fun i h3 _ _ => by rw [resetNewData_bits, if_neg h3]

theorem sync_editable (w : Word) : OnlyBits (Editable 0x8000#16) w (Props.syncWord w) :=
  status_editable fun i h3 h4 h5 => by rw [Props.syncWord_bits, if_neg h3, if_neg (by omega)]

theorem SurvivesEdits.regWrite {b : Bus σ ER EW} {cam : Cam} {addr : Byte} (h : SurvivesEdits b cam addr Inv Holds) {s : σ}
    {reg w w' : Word} (hr : Writable reg) (hh : Holds reg w s) (hb : OnlyBits (Editable reg) w w') (hi : Inv s) :
    Inv (regWrite b s addr reg w').1 := h.write s reg w w' hr hh hb hi

/-- What survives the documented accesses survives every call. -/
theorem exec_edits {env : Env σ ER EW} {d : Driver F σ} (hs : Supported env d)
    (h : SurvivesEdits env.bus d.calib.cam d.addr Inv Holds) (op : Op F) (hi : Inv d.bus) : Inv (op.exec env d).1.bus := by
  have hr := h.read.regRead (reg := 0x8000#16) (Or.inl rfl) hi
  have hc := h.read.regRead (reg := 0x800D#16) (Or.inr rfl) hi
  have hks := fun w => h.knows d.bus 0x8000#16 w (Or.inl rfl) hi
  have hkc := fun w => h.knows d.bus 0x800D#16 w (Or.inr rfl) hi
  refine op_cases env (P := fun op => Inv (op.exec env d).1.bus) ?_ ?_ ?_ ?_ ?_ ?_ ?_ ?_ ?_ ?_ ?_ ?_ ?_ op
  · intro op f hf he _ _ _ _
    rw [he]
    unfold discard
    rw [driverGet_eq]
    cases (regRead env.bus d.bus d.addr 0x800D#16).2 <;> exact hc
  · intro op f hf v he _ _ _ _
    rw [he]
    unfold discard
    rw [driverSet_eq]
    cases hq : (regRead env.bus d.bus d.addr 0x800D#16).2 with
    | error e => exact hc
    | ok w =>
      simp only
      split
      · exact hc
      · exact h.regWrite (Or.inr rfl) (hkc w hq) (set_editable f hf w v) hc
  · intro op he _ _ _ _
    rw [he]
    exact hr
  · intro v
    show Inv (Driver.setOverwriteEnabled env v d).1.bus
    rw [setOverwrite_eq]
    cases hq : (regRead env.bus d.bus d.addr 0x8000#16).2 with
    | error e => exact hr
    | ok w =>
      simp only
      split
      · exact hr
      · exact h.regWrite (Or.inl rfl) (hks w hq) (overwrite_editable w v) hr
  · show Inv (Driver.resetDataAvailable env d).1.bus
    rw [resetDataAvailable_eq]
    cases hq : (regRead env.bus d.bus d.addr 0x8000#16).2 with
    | error e => exact hr
    | ok w => exact h.regWrite (Or.inl rfl) (hks w hq) (reset_editable w) hr
  · intro v; exact hi
  · exact hi
  · intro v; exact hi
  · intro sp dest
    exact SurvivesReads.image hs h.read sp dest (fun d => toRawImage env.mode d sp dest) hi
  · intro sp dest
    exact SurvivesReads.image hs h.read sp dest (fun d => toTemperatures env.mode d sp dest) hi
  · intro dest
    show Inv (Driver.generateImageTo env dest d).1.bus
    rw [generateImageTo_eq]
    cases (regRead env.bus d.bus d.addr 0x8000#16).2 with
    | error e => exact hr
    | ok w =>
      have hs' : Supported env { d with bus := (regRead env.bus d.bus d.addr 0x8000#16).1 } := ⟨hs.1, hs.2, hs.3⟩
      exact SurvivesReads.image hs' h.read (if w.getLsbD 0 then .one else .zero) dest
        (fun d => toTemperatures env.mode d (if w.getLsbD 0 then .one else .zero) dest) hr
  · intro dest
    show Inv (Driver.generateImageIfReady env dest d).1.bus
    rw [ifReady_eq]
    cases hq : (regRead env.bus d.bus d.addr 0x8000#16).2 with
    | error e => exact hr
    | ok w =>
      simp only
      split
      · rw [imageSubpage_eq]
        have hs' : Supported env { d with bus := (regRead env.bus d.bus d.addr 0x8000#16).1 } := ⟨hs.1, hs.2, hs.3⟩
        have hk := imageWith_keeps env (if w.getLsbD 0 then .one else .zero) dest
          { d with bus := (regRead env.bus d.bus d.addr 0x8000#16).1 }
          (fun d => toTemperatures env.mode d (if w.getLsbD 0 then .one else .zero) dest)
        have hm := SurvivesReads.image hs' (h.read.and (h.keeps 0x8000#16 w)) (if w.getLsbD 0 then .one else .zero) dest
          (fun d => toTemperatures env.mode d (if w.getLsbD 0 then .one else .zero) dest) ⟨hr, hks w hq⟩
        generalize imageWith env (if w.getLsbD 0 then .one else .zero) dest
          { d with bus := (regRead env.bus d.bus d.addr 0x8000#16).1 }
          (fun d => toTemperatures env.mode d (if w.getLsbD 0 then .one else .zero) dest) = q at hk hm ⊢
        obtain ⟨d1, dest1, _ | e | _⟩ := q
        · simp only at hk hm ⊢
          have ha : d1.addr = d.addr := hk.1.addr
          rw [ha]
          exact h.regWrite (Or.inl rfl) hm.2 (reset_editable w) hm.1
        · exact hm.1
        · exact hm.1
      · exact hr
  · intro fuel
    show Inv (Driver.synchronize env fuel d).1.bus
    rw [Props.synchronize_eq]
    cases hq : (regRead env.bus d.bus d.addr 0x8000#16).2 with
    | error e => exact hr
    | ok w =>
      simp only
      have hw := h.regWrite (reg := 0x8000#16) (w' := Props.syncWord w) (Or.inl rfl) (hks w hq) (sync_editable w) hr
      cases (regWrite env.bus (regRead env.bus d.bus d.addr 0x8000#16).1 d.addr 0x8000#16 (Props.syncWord w)).2 with
      | some e => exact hw
      | none => exact SurvivesReads.poll fuel (d := { d with bus := (regWrite env.bus
          (regRead env.bus d.bus d.addr 0x8000#16).1 d.addr 0x8000#16 (Props.syncWord w)).1 }) h.read hw

theorem Survives.edits {b : Bus σ ER EW} {cam : Cam} {addr : Byte} (h : Survives b cam addr Inv) :
    SurvivesEdits b cam addr Inv fun _ _ _ => True where
  read := h.read
  keeps _ _ _ _ _ _ _ := trivial
  knows _ _ _ _ _ _ := trivial
  write s reg _ w' hr _ _ hi := h.write s reg w' hr hi

/-- What survives the documented accesses survives every call. -/
theorem exec_survives {env : Env σ ER EW} {d : Driver F σ} (hs : Supported env d)
    (h : Survives env.bus d.calib.cam d.addr Inv) (op : Op F) (hi : Inv d.bus) : Inv (op.exec env d).1.bus :=
  exec_edits hs h.edits op hi

end Mlx.Proofs
