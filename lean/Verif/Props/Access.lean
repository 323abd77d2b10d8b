import Verif.Proofs.Access
import Verif.Props.Thermometer
/-
C67 and C68: every access is to documented memory, and a healthy camera works.
-/
set_option linter.unusedSectionVars false
set_option autoImplicit false
namespace Mlx.Props
open Mlx Mlx.Spec Mlx.Proofs F32Ops
variable {F σ ER EW : Type} [F32Ops F] {mem : σ → Word → Word}

theorem runOps_edits {env : Env σ ER EW} {d : Driver F σ} (hs : Supported env d) {Inv : σ → Prop}
    {Holds : Word → Word → σ → Prop} (h : SurvivesEdits env.bus d.calib.cam d.addr Inv Holds) (ops : List (Op F))
    (hi : Inv d.bus) : Inv (runOps env ops d).bus := by
  induction ops generalizing d with
  | nil => exact hi
  | cons op ops ih =>
    obtain ⟨hs1, ha, hc⟩ := exec_supported hs op
    exact ih hs1 (by rw [ha, hc]; exact h) (exec_edits hs h op hi)

theorem runOps_survives {env : Env σ ER EW} {d : Driver F σ} (hs : Supported env d) {Inv : σ → Prop}
    (h : Survives env.bus d.calib.cam d.addr Inv) (ops : List (Op F)) (hi : Inv d.bus) : Inv (runOps env ops d).bus :=
  runOps_edits hs h.edits ops hi

theorem survives_documented (b : Bus σ ER EW) (cam : Cam) (addr : Byte) (log : List (Txn ER EW)) :
    Survives (recorded b) cam addr fun s => ∃ ts, s.2 = log ++ ts ∧ ∀ t ∈ ts, Documented cam addr t where
  read := by
    rintro s base buf hd ⟨ts, h1, h2⟩
    refine ⟨ts ++ [_], by show _ ++ _ = _; rw [h1, List.append_assoc], ?_⟩
    intro t ht
    rcases List.mem_append.1 ht with ht | ht
    · exact h2 t ht
    · rw [List.mem_singleton] at ht
      subst ht
      exact ⟨rfl, base, rfl, hd⟩
  write := by
    rintro s reg w hw ⟨ts, h1, h2⟩
    refine ⟨ts ++ [_], by show _ ++ _ = _; rw [h1, List.append_assoc], ?_⟩
    intro t ht
    rcases List.mem_append.1 ht with ht | ht
    · exact h2 t ht
    · rw [List.mem_singleton] at ht
      subst ht
      exact ⟨rfl, reg, w, rfl, hw⟩

/-- **C67.** On any bus, over any history of calls: a driver only ever reads the status and control registers (one word)
and whole words of the camera's RAM, and only ever writes one word to the status or control register, at its own
I²C address. -/
theorem C67_documented_accesses (env : Env σ ER EW) (d : Driver F (σ × List (Txn ER EW)))
    (h : Supported (recordedEnv env) d) (history : List (Op F)) :
    ∃ ts, (runOps (recordedEnv env) history d).bus.2 = d.bus.2 ++ ts ∧ ∀ t ∈ ts, Documented d.calib.cam d.addr t :=
  runOps_survives h (survives_documented env.bus d.calib.cam d.addr d.bus.2) history
    ⟨[], (List.append_nil _).symm, fun _ ht => nomatch ht⟩

/-- **C67 (from construction on).** Construction reads the 832 words of EEPROM and the control register, the rest is as
above. -/
theorem C67_from_construction (m : Mode) (b : Bus σ ER EW) (s : σ × List (Txn ER EW)) (addr : Byte)
    (env : Env σ ER EW) (d : Driver F (σ × List (Txn ER EW))) (h : Constructed m b s addr env d) (history : List (Op F)) :
    ∃ eeprom control ts, (runOps (recordedEnv env) history d).bus.2 =
        s.2 ++ .read addr (toBe 0x2400#16) 1664 (.ok eeprom) :: .readReg addr 0x800D#16 (.ok control) :: ts ∧
      ∀ t ∈ ts, Documented d.calib.cam addr t := by
  obtain ⟨hs, ha, _⟩ := constructed_reads h
  obtain ⟨ts, h1, h2⟩ := C67_documented_accesses env d hs history
  have key : ∀ (C : Type) (fromData : List Byte → Res LibErr C) (toCalib : C → Calib F) (n : Nat)
      (s' : σ × List (Txn ER EW)), Driver.new fromData toCalib (recorded b) n s addr = (s', .ok d) →
      ∃ eeprom control, d.bus.2 = s.2 ++ [.read addr (toBe 0x2400#16) 1664 (.ok eeprom),
        .readReg addr 0x800D#16 (.ok control)] := by
    intro C fromData toCalib n s' hd
    obtain ⟨s1, eeprom, ts, outcome, h1, h2⟩ := C39_construction fromData toCalib b n s addr
    rw [hd] at h1
    simp only [Prod.mk.injEq] at h1
    obtain ⟨_, rfl⟩ := h1
    cases eeprom with
    | error e => simp at h2
    | ok bytes =>
      simp only at h2
      obtain ⟨_, h2⟩ := h2
      cases hc : fromData bytes with
      | err e => rw [hc] at h2; simp at h2
      | panic => rw [hc] at h2; simp at h2
      | ok c =>
        rw [hc] at h2
        obtain ⟨control, h3, h4⟩ := h2
        cases control with
        | error e => simp at h4
        | ok w =>
          obtain ⟨d1, h5, h6, _⟩ := h4
          cases h5
          exact ⟨bytes, w, by rw [h6, h3]; rfl⟩
  obtain ⟨eeprom, control, h3⟩ : ∃ eeprom control, d.bus.2 = s.2 ++ [.read addr (toBe 0x2400#16) 1664 (.ok eeprom),
        .readReg addr 0x800D#16 (.ok control)] := by
    rcases h with ⟨rfl, s', hd⟩ | ⟨rfl, s', hd⟩
    · exact key _ _ _ _ _ hd
    · exact key _ _ _ _ _ hd
  refine ⟨eeprom, control, ts, ?_, by rw [← ha]; exact h2⟩
  rw [h1, h3, List.append_assoc]
  rfl

/-! ### A healthy camera works -/

/-- Construction on a bus that serves the accesses. -/
theorem new_served {C : Type} (fromData : List Byte → Res LibErr C) (toCalib : C → Calib F) {b : Bus σ ER EW} (n : Nat)
    (s : σ) {cam : Cam} {addr : Byte} (h : StaticMemory b addr mem) (hv : Serves b cam addr mem) :
    (∃ s' d, Driver.new fromData toCalib b n s addr = (s', .ok d)) ↔
      ∃ c, fromData (memBytes (mem s) 0x2400#16 1664) = .ok c := by
  unfold Driver.new calibFromI2c Bus.read
  have h1 := h.read_data s 0x2400#16 (List.replicate ((0x273F - 0x2400 + 1) * 2) 0#8)
  have h2 := hv.eeprom s (List.replicate ((0x273F - 0x2400 + 1) * 2) 0#8) (by rw [List.length_replicate])
  rw [List.length_replicate] at h1
  generalize b.writeRead s addr (toBe 0x2400#16) (List.replicate ((0x273F - 0x2400 + 1) * 2) 0#8) = q at h1 h2 ⊢
  obtain ⟨s1, bytes, _ | e⟩ := q
  · have hb : bytes = memBytes (mem s) 0x2400#16 1664 := h1 rfl
    rw [← hb]
    simp only
    cases hf : fromData bytes with
    | panic => simp [Res.mapErr]
    | err e => simp [Res.mapErr]
    | ok c =>
      refine ⟨fun _ => ⟨c, rfl⟩, fun _ => ?_⟩
      simp only [Res.mapErr]
      unfold Driver.newWithCalibration
      rw [readControl_eq]
      obtain ⟨w, h3⟩ : ∃ w, (regRead b s1 addr 0x800D#16).2 = .ok w := by
        unfold regRead
        dsimp only
        rw [hv.read s1 0x800D#16 [0#8, 0#8] (Or.inl ⟨rfl, Or.inr rfl⟩)]
        exact ⟨_, rfl⟩
      generalize regRead b s1 addr 0x800D#16 = q at h3 ⊢
      obtain ⟨s2, r⟩ := q
      simp only at h3
      subst h3
      simp only [resolution_val, accessPattern_val, Res.ok_bind]
      exact ⟨_, _, rfl⟩
  · cases h2

theorem sumsFit_same {E E' : Nat → Word} (hsame : SameEeprom E E') {i : Nat} (hi : i < 768) :
    Ee640.SumsFit E i ↔ Ee640.SumsFit E' i := by
  obtain ⟨e1, e2, e3, e4⟩ := hsame.offsets hi
  obtain ⟨e5, e6, e7, e8, _⟩ := hsame.alphas hi
  obtain ⟨e9, e10, _⟩ := hsame.kTas hi
  unfold Ee640.SumsFit
  rw [e1, e2, e3, e4, e5, e6, e7, e9, e10, hsame.failed hi]

/-- **C68 (construction).** With a camera of static memory on a bus that serves the documented accesses, construction
succeeds: for an MLX90640 always (with overflow checks: when the sums of its EEPROM fit), for an MLX90641 when every
EEPROM word that is decoded has at most one wrong bit (with overflow checks: and the offsets fit). -/
theorem C68_construction (m : Mode) (b : Bus σ ER EW) (s : σ) (addr : Byte) (h : StaticMemory b addr mem) :
    (Serves b Mlx90640.cam addr mem → ((∃ s' d, Driver.new640 (F := F) m b s addr = (s', .ok d)) ↔
      m = .wrapping ∨ ∀ i < 768, Ee640.SumsFit (eepromOf (mem s)) i)) ∧
    (Serves b Mlx90641.cam addr mem → ((∃ s' d, Driver.new641 (F := F) m b s addr = (s', .ok d)) ↔
      ∃ D : Nat → BitVec 11, (∀ a ∈ Ee641.readAddresses 192, WithinOneBit (eepromOf (mem s) a) (codeword (D a))) ∧
        (m = .wrapping ∨ Ee641.OffsetsFit (Ee641.widen D)))) := by
  have hl : 1664 ≤ (memBytes (mem s) 0x2400#16 1664).length := by simp [memBytes]
  constructor
  · intro hv
    unfold Driver.new640
    rw [new_served _ _ _ s h hv, fromData_eq m hl]
    have hsums : ∀ i < 768, (Ee640.SumsFit (eepromWord (memBytes (mem s) 0x2400#16 1664)) i ↔
        Ee640.SumsFit (eepromOf (mem s)) i) := fun i hi =>
      sumsFit_same (fun a h1 h2 => eepromWord_memBytes _ h1 h2) hi
    constructor
    · rintro ⟨c, hc⟩
      by_cases hm : m = .wrapping
      · exact Or.inl hm
      · refine Or.inr fun i hi => (hsums i hi).1 ?_
        by_contra hn
        rw [onlyIf_neg fun hp => hn ((hp i hi).resolve_left hm)] at hc
        cases hc
    · intro hp
      refine ⟨_, onlyIf_pos (fun i hi => ?_) _⟩
      rcases hp with hm | hp
      · exact Or.inl hm
      · exact Or.inr ((hsums i hi).2 (hp i hi))
  · intro hv
    unfold Driver.new641
    rw [new_served _ _ _ s h hv]
    have hiff : ∀ D, Ee641.Holds (memBytes (mem s) 0x2400#16 1664) D (Ee641.readAddresses 192) ↔
        ∀ a ∈ Ee641.readAddresses 192, WithinOneBit (eepromOf (mem s) a) (codeword (D a)) := by
      intro D
      refine forall_congr' fun a => imp_congr_right fun ha => ?_
      have hb := readAddresses_bounds ha
      rw [eepromWord_memBytes _ (by omega) hb.2.1]
    constructor
    · rintro ⟨c, hc⟩
      obtain ⟨D, hD⟩ := holds_of_accepted hc
      refine ⟨D, (hiff D).1 hD, ?_⟩
      rw [fromData641_full m hl (decoded_of_holds hD)] at hc
      by_contra hn
      rw [onlyIf_neg hn] at hc
      cases hc
    · rintro ⟨D, hD, hp⟩
      rw [fromData641_full m hl (decoded_of_holds ((hiff D).2 hD))]
      exact ⟨_, onlyIf_pos hp _⟩

/-- The recorded accesses on a bus that serves them to a device with static memory: all succeed, and words of RAM are
received as they are in the memory `M`. -/
theorem survives_served {b : Bus σ ER EW} {cam : Cam} {addr : Byte} (h : StaticMemory b addr mem) (hv : Serves b cam addr mem)
    (M : Word → Word) {reg : Word} (hreg : ¬ Writable reg) :
    SurvivesEdits (recorded b) cam addr (fun s => (∀ a, ¬ Writable a → mem s.1 a = M a) ∧
      ∀ t ∈ s.2, t.succeeded = true ∧ ∀ w, t = .readReg addr reg (.ok w) → w = M reg) (fun r w s => mem s.1 r = w) where
  read := by
    rintro s base buf hd ⟨h1, h2⟩
    refine ⟨fun a ha => ?_, fun t ht => ?_⟩
    · show mem (b.writeRead s.1 addr (toBe base) buf).1 a = _
      rw [h.read_mem]; exact h1 a ha
    · rcases List.mem_append.1 ht with ht | ht
      · exact h2 t ht
      · rw [List.mem_singleton] at ht
        have hok := hv.read s.1 base buf hd
        have hdata := h.read_data s.1 base buf hok
        rw [hok] at ht
        subst ht
        refine ⟨rfl, fun w hw => ?_⟩
        unfold Txn.readReg at hw
        simp only [Txn.read.injEq, true_and, Except.ok.injEq] at hw
        obtain ⟨h3, h4, h5⟩ := hw
        have := toBe_inj h3
        subst this
        rw [hdata, h4] at h5
        have h6 : memBytes (mem s.1) base 2 = toBe (mem s.1 base) := by
          rw [memBytes_two]
        rw [h6] at h5
        rw [← toBe_inj h5]
        exact h1 _ hreg
  keeps r w s base buf _ hm := by
    show mem (b.writeRead s.1 addr (toBe base) buf).1 r = _
    rw [h.read_mem]; exact hm
  knows s r w _ _ hw := by
    obtain ⟨h1, h2⟩ := static_regRead (static_recorded h) s r
    rw [h2 w hw]
    exact congrFun h1 r
  write := by
    rintro s r w0 w hw hm hb ⟨h1, h2⟩
    subst hm
    refine ⟨fun a ha => ?_, fun t ht => ?_⟩
    · show mem (b.write s.1 addr (toBe r ++ toBe w)).1 a = _
      rw [h.write_ok _ _ _ (hv.write s.1 r w hw hb)]
      unfold setWord
      rw [if_neg]
      · exact h1 a ha
      · rintro rfl; exact ha hw
    · rcases List.mem_append.1 ht with ht | ht
      · exact h2 t ht
      · rw [List.mem_singleton] at ht
        subst ht
        rw [hv.write s.1 r w hw hb]
        exact ⟨rfl, fun _ hc => nomatch hc⟩

/-- One call on a healthy camera, by any supported driver with a complete calibration. -/
theorem healthy_call {env : Env σ ER EW} {d : Driver F σ} (hs : Supported env d) (hk : d.calib.cam.basicRange < d.calib.kSTo.length)
    (h : StaticMemory env.bus d.addr mem) (hv : Serves env.bus d.calib.cam d.addr mem)
    (hfit : env.mode = .wrapping ∨ Fits16 ((mem d.bus d.calib.cam.vddPixel).toInt - d.calib.vdd25)) (op : Op F) :
    (op.exec env d).2 = .ok () := by
  let d0 : Driver F (σ × List (Txn ER EW)) := { d with bus := (d.bus, []) }
  have hs0 : Supported (recordedEnv env) d0 := ⟨hs.1, hs.2, hs.3⟩
  have hreg : ¬ Writable d.calib.cam.vddPixel := by
    rcases hs.cam with hc | hc <;> rw [hc] <;> unfold Writable <;> decide
  have hsv := survives_served h hv (mem d.bus) hreg
  obtain ⟨ts, h1, h2, h3⟩ := call_outcome env d0 hs0 hk op
  have hinv := exec_edits (env := recordedEnv env) hs0 hsv op ⟨fun a _ => rfl, fun t ht => nomatch ht⟩
  rw [h1] at hinv
  have hts : ∀ t ∈ ts, t.succeeded = true ∧ ∀ w, t = .readReg d.addr d.calib.cam.vddPixel (.ok w) →
      w = mem d.bus d.calib.cam.vddPixel := fun t ht => hinv.2 t (List.mem_append_right _ ht)
  have hrec := congrArg Prod.snd (C60_recorder_transparent env op d0)
  simp only at hrec
  have hf : forget d0 = d := rfl
  rw [hf] at hrec
  rw [← hrec]
  cases ho : (op.exec (recordedEnv env) d0).2 with
  | ok u => rfl
  | err e =>
    rw [ho] at h2
    obtain ⟨init, last, rfl, _, hl⟩ := h2
    have := (hts last (List.mem_append_right _ (List.mem_singleton_self _))).1
    cases last with
    | read a s n res => cases res with
      | error e => cases this
      | ok b => cases hl
    | write a s res => cases res with
      | some e => cases this
      | none => cases hl
  | panic =>
    obtain ⟨hm, _, _, w, hw, hov⟩ := h3.1 ho
    have := (hts _ hw).2 w rfl
    subst this
    rcases hfit with hf | hf
    · have hm : env.mode = .checked := hm
      rw [hf] at hm; cases hm
    · exact absurd hf hov

/-- **C68.** With a camera on a bus that serves the documented accesses, whose memory is only changed by writes and by its
measurements, and a driver made by one of the constructors, every call of every session succeeds, and so does every further
call - unless the crate was built with overflow checks and the supply voltage word of a frame is too far from its
reference. -/
theorem C68_healthy_camera_works (m : Mode) (b : Bus σ ER EW) (s s' : σ) (addr : Byte) (d : Driver F σ) (n : Nat)
    (hd : (n = 24 ∧ Driver.new640 m b s addr = (s', .ok d)) ∨ (n = 12 ∧ Driver.new641 m b s addr = (s', .ok d)))
    (h : StaticMemory b addr mem) (hv : Serves b d.calib.cam addr mem) (hfit : SupplyFits m d.calib (mem s))
    (calls : List (Op F × Res (Err ER EW) Unit)) (d1 : Driver F σ)
    (hx : Session ⟨m, n, b⟩ mem (SupplyFits m d.calib) d calls d1) :
    (∀ c ∈ calls, c.2 = .ok ()) ∧ ∀ op : Op F, (op.exec ⟨m, n, b⟩ d1).2 = .ok () := by
  have hd' : Driver.new640 m b s addr = (s', .ok d) ∨ Driver.new641 m b s addr = (s', .ok d) :=
    hd.imp And.right And.right
  have hmem : mem d.bus = mem s := by
    rcases hd' with hd | hd
    · exact (new_static h hd).1
    · exact (new_static h hd).1
  obtain ⟨hs, ha⟩ : Supported (⟨m, n, b⟩ : Env σ ER EW) d ∧ d.addr = addr := by
    rcases hd with ⟨rfl, hd⟩ | ⟨rfl, hd⟩
    · exact (C39_constructed_drivers_supported m b s addr).1 s' d hd
    · exact (C39_constructed_drivers_supported m b s addr).2 s' d hd
  have hk := (constructed_complete hd').kSTo
  have hst : StaticMemory (⟨m, n, b⟩ : Env σ ER EW).bus d.addr mem := by rw [ha]; exact h
  have step : ∀ calls d1, Session ⟨m, n, b⟩ mem (SupplyFits m d.calib) d calls d1 →
      ∀ op : Op F, (op.exec ⟨m, n, b⟩ d1).2 = .ok () := by
    intro calls d1 hx op
    obtain ⟨hs1, ha1, hc1⟩ := session_supported hs hx
    have hfit1 : SupplyFits m d.calib (mem d1.bus) := by
      refine session_frame hs hst ?_ (by rw [hmem]; exact hfit) hx
      intro M M' hM hf
      refine hf.imp id fun hf => ?_
      rw [hM _ ?_ ?_]
      · exact hf
      all_goals rcases hs.cam with hc | hc <;> rw [hc] <;> decide
    refine healthy_call hs1 (by rw [hc1]; exact hk) (by rw [ha1]; exact hst) (by rw [ha1, hc1, ha]; exact hv) ?_ op
    rw [hc1]
    exact hfit1
  refine ⟨?_, step calls d1 hx⟩
  induction hx with
  | start => exact fun c hc => nomatch hc
  | call op hx ih =>
    intro c hc
    rcases List.mem_append.1 hc with hc | hc
    · exact ih c hc
    · rw [List.mem_singleton] at hc
      rw [hc]
      exact step _ _ hx op
  | measurement s _ _ _ ih => exact ih

/-- **C48 (an idle camera).** With a camera on a bus that serves the documented accesses, whose memory is only changed by
writes - so that no measurement finishes during the call - `synchronize` never returns, whatever the status register held
before. (So in C68 its "success" is that it is still waiting, for every number of polls after which one looks.) -/
theorem C48_spins_on_idle_camera (env : Env σ ER EW) (d : Driver F σ)
    (h : StaticMemory env.bus d.addr mem) (hv : Serves env.bus d.calib.cam d.addr mem) (fuel : Nat) :
    (Driver.synchronize env fuel d).2 = .ok false := by
  have hread : ∀ s, ∃ w, (regRead env.bus s d.addr 0x8000#16).2 = .ok w ∧ w = mem s 0x8000#16 ∧
      mem (regRead env.bus s d.addr 0x8000#16).1 = mem s := by
    intro s
    have h1 := hv.read s 0x8000#16 [0#8, 0#8] (Or.inl ⟨rfl, Or.inl rfl⟩)
    obtain ⟨hm, hw⟩ := static_regRead h s 0x8000#16
    have : ∃ w, (regRead env.bus s d.addr 0x8000#16).2 = .ok w := by
      unfold regRead
      dsimp only
      rw [h1]
      exact ⟨_, rfl⟩
    obtain ⟨w, hw'⟩ := this
    exact ⟨w, hw', hw w hw', hm⟩
  obtain ⟨w, h1, h2, h3⟩ := hread d.bus
  rw [synchronize_eq, h1]
  dsimp only
  have hw : (regWrite env.bus (regRead env.bus d.bus d.addr 0x8000#16).1 d.addr 0x8000#16 (syncWord w)).2 = none := by
    refine hv.write _ _ _ (Or.inl rfl) fun i hi => ?_
    rw [syncWord_bits, h3, ← h2]
    unfold Editable at hi
    rw [if_neg (fun hc => hi (Or.inl ⟨rfl, by omega⟩)), if_neg (fun hc => hi (Or.inl ⟨rfl, by omega⟩))]
  have hm : mem (regWrite env.bus (regRead env.bus d.bus d.addr 0x8000#16).1 d.addr 0x8000#16 (syncWord w)).1 0x8000#16 =
      syncWord w := by
    have := h.write_ok _ _ _ hw
    unfold regWrite
    rw [this]
    unfold setWord
    exact if_pos rfl
  rw [hw]
  dsimp only
  rw [pollStatus_waiting]
  dsimp only
  intro k _
  generalize (regWrite env.bus (regRead env.bus d.bus d.addr 0x8000#16).1 d.addr 0x8000#16 (syncWord w)).1 = s at hm
  have hk : mem (statusPolls env.bus d.addr s k) = mem s := by
    induction k with
    | zero => rfl
    | succ k ih =>
      obtain ⟨_, _, _, h4⟩ := hread (statusPolls env.bus d.addr s k)
      exact h4.trans (ih (by omega))
  obtain ⟨v, h4, h5, _⟩ := hread (statusPolls env.bus d.addr s k)
  refine ⟨v, h4, ?_⟩
  rw [h5, hk, hm, syncWord_bits]
  rfl

/-- In particular no call fails to write the control register. -/
theorem healthy_noControlWriteFailed {calls : List (Op F × Res (Err ER EW) Unit)} (h : ∀ c ∈ calls, c.2 = .ok ()) :
    ∀ c ∈ calls, ¬ ControlWriteFailed c.1 c.2 := by
  rintro c hc ⟨_, e, he⟩
  rw [h c hc] at he
  cases he


/-! ### The hypotheses can be met -/

theorem cameraBus_static (addr : Byte) : StaticMemory (cameraBus addr) addr id where
  read_data s base buf h := by
    simp only [cameraBus, toBe, if_true, be16_toBe, id]
  read_mem s base buf := by
    simp only [cameraBus, toBe, if_true]
  write_ok s reg v h := by
    simp only [cameraBus, toBe, List.cons_append, List.nil_append, if_true, be16_toBe, id]
  write_err s reg v h := by
    simp only [cameraBus, toBe, List.cons_append, List.nil_append, if_true] at h
    exact absurd rfl h

theorem cameraBus_serves (cam : Cam) (addr : Byte) : Serves (cameraBus addr) cam addr id where
  read s base buf _ := by simp only [cameraBus, toBe, if_true]
  write s reg w _ _ := by simp only [cameraBus, toBe, List.cons_append, List.nil_append, if_true]
  eeprom s buf _ := by simp only [cameraBus, toBe, if_true]

theorem exampleMemory_eeprom (words : Nat → Nat) {a : Nat} (h1 : 0x2400 ≤ a) (h2 : a < 0x2740) :
    eepromOf (exampleMemory words) a = BitVec.ofNat 16 (words (a - 0x2400)) := by
  unfold eepromOf exampleMemory
  rw [BitVec.toNat_ofNat, Nat.mod_eq_of_lt (by omega), if_pos ⟨h1, h2⟩]

theorem exampleMemory_same (words : Nat → Nat) :
    SameEeprom (fun a => BitVec.ofNat 16 (words (a - 0x2400))) (eepromOf (exampleMemory words)) :=
  fun _ h1 h2 => (exampleMemory_eeprom words h1 h2).symm

instance (E : Nat → Word) : Decidable (Ee640.Regular E) := by unfold Ee640.Regular; infer_instance

theorem example640_regular : Ee640.Regular (eepromOf (exampleMemory words640)) :=
  (exampleMemory_same words640).regular (by decide +kernel)

/-- A camera with the EEPROM of the datasheet's worked example, in both builds. -/
theorem camera640_example (m : Mode) :
    ∃ s' d, Driver.new640 (F := ℝ) m (cameraBus 0x33#8) (exampleMemory words640) 0x33#8 = (s', .ok d) ∧
      Ee640.Regular (eepromOf (exampleMemory words640)) ∧
      Fits16 ((exampleMemory words640 0x072A#16).toInt - (Ee640.calibration (eepromOf (exampleMemory words640))).vdd25) ∧
      d.calib = Ee640.calibration (eepromOf (exampleMemory words640)) ∧ d.bus = exampleMemory words640 ∧
      SupplyFits m d.calib (exampleMemory words640) := by
  have hst := cameraBus_static 0x33#8
  have hreg := example640_regular
  have hsums : ∀ i < 768, Ee640.SumsFit (eepromOf (exampleMemory words640)) i := by
    intro i hi
    have key : ∀ i < 768, Ee640.SumsFit (fun a => BitVec.ofNat 16 (words640 (a - 0x2400))) i := by decide +kernel
    exact (sumsFit_same (exampleMemory_same words640) hi).1 (key i hi)
  obtain ⟨s', d, hd⟩ := ((C68_construction (F := ℝ) m _ (exampleMemory words640) _ hst).1
    (cameraBus_serves _ _)).2 (Or.inr hsums)
  obtain ⟨hbus, c, hc, hcal⟩ := new_static hst hd
  have hreg' : Ee640.Regular (eepromWord (memBytes (exampleMemory words640) 0x2400#16 1664)) := by
    refine SameEeprom.regular (E := eepromOf (exampleMemory words640)) ?_ hreg
    exact fun a h1 h2 => (eepromWord_memBytes _ h1 h2).symm
  have htab : d.calib = Ee640.calibration (eepromOf (exampleMemory words640)) := by
    rw [hcal]
    rw [C66_table_640 m _ c hc hreg']
    exact SameEeprom.calibration fun a h1 h2 => eepromWord_memBytes _ h1 h2
  have hfit : Fits16 ((exampleMemory words640 0x072A#16).toInt -
      (Ee640.calibration (eepromOf (exampleMemory words640))).vdd25) := by
    show Fits16 (_ - (((bitsAt (eepromOf (exampleMemory words640) 0x2433) 0 8 : Int) - 256) * 2 ^ 5 - 2 ^ 13))
    rw [exampleMemory_eeprom _ (by decide) (by decide)]
    decide +kernel
  have hfit' : Fits16 ((id (exampleMemory words640) d.calib.cam.vddPixel).toInt - d.calib.vdd25) := by
    rw [htab]; exact hfit
  exact ⟨s', d, hd, hreg, hfit, htab, hbus, Or.inr hfit'⟩

/-- Everything `C66_camera_640` and `C68_healthy_camera_works` assume holds for a camera with the EEPROM of the
datasheet's worked example, in both builds; in any session images are made. -/
example (m : Mode) (sp : Subpage) (dest : List ℝ) :
    ∃ s' d, Driver.new640 m (cameraBus 0x33#8) (exampleMemory words640) 0x33#8 = (s', .ok d) ∧
      StaticMemory (cameraBus 0x33#8) 0x33#8 id ∧ Serves (cameraBus 0x33#8) d.calib.cam 0x33#8 id ∧
      Ee640.Regular (eepromOf (exampleMemory words640)) ∧
      Fits16 ((exampleMemory words640 0x072A#16).toInt - (Ee640.calibration (eepromOf (exampleMemory words640))).vdd25) ∧
      SupplyFits m d.calib (exampleMemory words640) ∧
      ∀ calls d1, Session ⟨m, 24, cameraBus 0x33#8⟩ id (SupplyFits m d.calib) d calls d1 →
        (∀ c ∈ calls, ¬ ControlWriteFailed c.1 c.2) ∧
        ∃ d' dest', Driver.generateImageSubpageTo ⟨m, 24, cameraBus 0x33#8⟩ sp dest d1 = (d', dest', .ok ()) := by
  obtain ⟨s', d, hd, hreg, hfit, _, _, hfit'⟩ := camera640_example m
  have hst := cameraBus_static 0x33#8
  refine ⟨s', d, hd, hst, cameraBus_serves _ _, hreg, hfit, hfit', fun calls d1 hx => ?_⟩
  obtain ⟨hall, hone⟩ := C68_healthy_camera_works m _ _ s' _ d 24 (Or.inl ⟨rfl, hd⟩) hst (cameraBus_serves _ _) hfit'
    calls d1 hx
  refine ⟨healthy_noControlWriteFailed hall, ?_⟩
  have this : (discardImage (Driver.generateImageSubpageTo ⟨m, 24, cameraBus 0x33#8⟩ sp dest d1)).2 = .ok () :=
    hone (.generateImageSubpageTo sp dest)
  revert this
  generalize Driver.generateImageSubpageTo ⟨m, 24, cameraBus 0x33#8⟩ sp dest d1 = q
  intro this
  obtain ⟨d', dest', r⟩ := q
  unfold discardImage discard at this
  cases r with
  | ok u => exact ⟨d', dest', rfl⟩
  | err e => cases this
  | panic => cases this

instance (D : Nat → BitVec 11) : Decidable (Ee641.Regular D) :=
  decidable_of_iff ((∀ a ∈ [0x2412, 0x2425, 0x2429, 0x2430], (D a).toNat < 32) ∧
      ∀ i < 192, Ee641.isFailed (Ee641.widen D) i = false →
        Fits16 (Ee641.offsetAverage (Ee641.widen D) +
          Ee641.offsetRaw (Ee641.widen D) .zero i * 2 ^ Ee641.offsetExp (Ee641.widen D)) ∧
        Fits16 (Ee641.offsetAverage (Ee641.widen D) +
          Ee641.offsetRaw (Ee641.widen D) .one i * 2 ^ Ee641.offsetExp (Ee641.widen D)))
    ⟨fun ⟨h1, h2⟩ => ⟨h1, fun i hi hf s => by cases s; exacts [(h2 i hi hf).1, (h2 i hi hf).2]⟩,
      fun ⟨h1, h2⟩ => ⟨h1, fun i hi hf => ⟨h2 i hi hf .zero, h2 i hi hf .one⟩⟩⟩

theorem example641_regular : Ee641.Regular values641 := by decide +kernel

/-- The same for an MLX90641, and `C66_camera_641`. -/
example (m : Mode) (sp : Subpage) (dest : List ℝ) :
    ∃ s' d, Driver.new641 m (cameraBus 0x33#8) (exampleMemory words641) 0x33#8 = (s', .ok d) ∧
      StaticMemory (cameraBus 0x33#8) 0x33#8 id ∧ Serves (cameraBus 0x33#8) d.calib.cam 0x33#8 id ∧
      Ee641.Regular values641 ∧
      (∀ a ∈ Ee641.readAddresses 192,
        WithinOneBit (eepromOf (exampleMemory words641) a) (codeword (values641 a))) ∧
      Fits16 ((exampleMemory words641 0x05AA#16).toInt - (Ee641.calibration values641).vdd25) ∧
      SupplyFits m d.calib (exampleMemory words641) ∧
      ∀ calls d1, Session ⟨m, 12, cameraBus 0x33#8⟩ id (SupplyFits m d.calib) d calls d1 →
        (∀ c ∈ calls, ¬ ControlWriteFailed c.1 c.2) ∧
        ∃ d' dest', Driver.generateImageSubpageTo ⟨m, 12, cameraBus 0x33#8⟩ sp dest d1 = (d', dest', .ok ()) := by
  have hst := cameraBus_static 0x33#8
  have hreg := example641_regular
  have hw : ∀ a ∈ Ee641.readAddresses 192,
      WithinOneBit (eepromOf (exampleMemory words641) a) (codeword (values641 a)) := by
    have key : ∀ a ∈ Ee641.readAddresses 192,
      WithinOneBit (BitVec.ofNat 16 (words641 (a - 0x2400))) (codeword (values641 a)) := by decide +kernel
    intro a ha
    obtain ⟨h1, h2, _⟩ := readAddresses_bounds ha
    rw [exampleMemory_eeprom _ (by omega) (by omega)]
    exact key a ha
  obtain ⟨s', d, hd⟩ := ((C68_construction (F := ℝ) m _ (exampleMemory words641) _ hst).2
    (cameraBus_serves _ _)).2 ⟨values641, hw, Or.inr example641_fits⟩
  obtain ⟨_, c, hc, hcal⟩ := new_static hst hd
  have hholds : Ee641.Holds (memBytes (exampleMemory words641) 0x2400#16 1664) values641 (Ee641.readAddresses 192) := by
    intro a ha
    have hb := readAddresses_bounds ha
    rw [eepromWord_memBytes _ (by omega) hb.2.1]
    exact hw a ha
  have htab : d.calib = Ee641.calibration values641 := by
    rw [hcal, C66_table_641 m _ c hc _ hholds hreg]
  have hfit : Fits16 ((exampleMemory words641 0x05AA#16).toInt - (Ee641.calibration values641).vdd25) := by
    show Fits16 (_ - (values641 0x2426).toInt * 2 ^ 5)
    decide +kernel
  have hfit' : Fits16 ((id (exampleMemory words641) d.calib.cam.vddPixel).toInt - d.calib.vdd25) := by
    rw [htab]; exact hfit
  refine ⟨s', d, hd, hst, cameraBus_serves _ _, hreg, hw,
    hfit, Or.inr hfit', fun calls d1 hx => ?_⟩
  obtain ⟨hall, hone⟩ := C68_healthy_camera_works m _ _ s' _ d 12 (Or.inr ⟨rfl, hd⟩) hst (cameraBus_serves _ _) (Or.inr hfit')
    calls d1 hx
  refine ⟨healthy_noControlWriteFailed hall, ?_⟩
  have this : (discardImage (Driver.generateImageSubpageTo ⟨m, 12, cameraBus 0x33#8⟩ sp dest d1)).2 = .ok () :=
    hone (.generateImageSubpageTo sp dest)
  revert this
  generalize Driver.generateImageSubpageTo ⟨m, 12, cameraBus 0x33#8⟩ sp dest d1 = q
  intro this
  obtain ⟨d', dest', r⟩ := q
  unfold discardImage discard at this
  cases r with
  | ok u => exact ⟨d', dest', rfl⟩
  | err e => cases this
  | panic => cases this

/-- A session with calls and a measurement that changes a pixel and the status register. -/
example (m : Mode) (d : Driver ℝ (Word → Word)) (hd : SupplyFits m d.calib d.bus) (hcam : d.calib.cam = Mlx90640.cam)
    (ha : d.addr = 0x33#8) (hs : Supported ⟨m, 24, cameraBus 0x33#8⟩ d) :
    ∃ calls d1, Session ⟨m, 24, cameraBus 0x33#8⟩ id (SupplyFits m d.calib) d calls d1 ∧ calls.length = 2 ∧
      d1.bus 0x0400#16 = ~~~ d.bus 0x0400#16 := by
  let op : Op ℝ := .dataAvailable
  let env : Env (Word → Word) Unit Unit := ⟨m, 24, cameraBus 0x33#8⟩
  let d1 := (op.exec env d).1
  let M : Word → Word := setWord (setWord d1.bus 0x8000#16 0x0009#16) 0x0400#16 (~~~ d.bus 0x0400#16)
  have h1 : Session env id (SupplyFits m d.calib) d ([] ++ [(op, (op.exec env d).2)]) d1 := .call op .start
  have hst : StaticMemory env.bus d.addr id := by rw [ha]; exact cameraBus_static 0x33#8
  have h2 : Session env id (SupplyFits m d.calib) d ([] ++ [(op, (op.exec env d).2)]) { d1 with bus := M } := by
    refine .measurement M h1 (fun a hv => ?_) ?_
    · show setWord (setWord d1.bus 0x8000#16 0x0009#16) 0x0400#16 (~~~ d.bus 0x0400#16) a = d1.bus a
      unfold setWord
      rw [if_neg, if_neg]
      · rintro rfl; exact hv (Or.inr rfl)
      · rintro rfl; exact hv (Or.inl (by decide))
    · refine hd.imp id fun hf => ?_
      have : M d.calib.cam.vddPixel = d.bus d.calib.cam.vddPixel := by
        rw [hcam]
        exact exec_static (mem := id) hs hst op _ (by decide) (by decide)
      show Fits16 ((M d.calib.cam.vddPixel).toInt - _)
      rw [this]
      exact hf
  refine ⟨_, _, .call op h2, rfl, ?_⟩
  have h3 := session_supported hs h2
  exact exec_static (mem := id) h3.1 (by rw [h3.2.1]; exact hst) op 0x0400#16 (by decide) (by decide)

end Mlx.Props
