import Verif.Proofs.Ops
import Verif.Props.Image
/-
Histories of driver calls: C49, C50, C52, C53.
-/
set_option linter.unusedSectionVars false
set_option autoImplicit false
namespace Mlx.Props
open Mlx Mlx.Spec Mlx.Proofs F32Ops
variable {F σ ER EW : Type} [F32Ops F]

/-! ### Settings -/

/-- **C49 (local settings).** The three methods that set emissivity and reflected temperature cause no bus
traffic. -/
theorem C49_local_settings_no_traffic (env : Env σ ER EW) (op : Op F) (h : isLocal op = true) (d : Driver F σ) :
    (op.exec env d).1.bus = d.bus ∧ (op.exec env d).2 = .ok () := by
  cases op <;> simp only [isLocal, Bool.false_eq_true] at h <;> exact ⟨rfl, rfl⟩

/-- **C49 (getters).** After any history of calls, whatever the bus does, the emissivity getter returns the value
set last (the calibration's, or 1 if it has none, after `use_default_emissivity`), and the reflected temperature
getter the value set last. -/
theorem C49_settings_after_history (env : Env σ ER EW) (ops : List (Op F)) (d : Driver F σ) :
    (runOps env ops d).effectiveEmissivity =
      emissivityAfter (d.calib.emissivity.getD (lit 1)) ops d.effectiveEmissivity ∧
    (runOps env ops d).reflectedTemperature = reflectedAfter ops d.reflectedTemperature := by
  induction ops generalizing d with
  | nil => exact ⟨rfl, rfl⟩
  | cons op ops ih =>
    obtain ⟨h1, h2⟩ := ih (op.exec env d).1
    cases hl : isLocal op with
    | true =>
      cases op <;> simp only [isLocal, Bool.false_eq_true] at hl <;> exact ⟨h1, h2⟩
    | false =>
      have hk := (exec_keeps env op hl d).1
      unfold Driver.effectiveEmissivity at h1 ⊢
      unfold Driver.reflectedTemperature at h2 ⊢
      rw [hk.emissivity, hk.calib] at h1
      rw [hk.reflected] at h2
      constructor
      · refine Eq.trans h1 ?_
        cases op <;> first | rfl | (simp only [isLocal, Bool.true_eq_false] at hl)
      · refine Eq.trans h2 ?_
        cases op <;> first | rfl | (simp only [isLocal, Bool.true_eq_false] at hl)

example : emissivityAfter (F := Int) 7 [.frameRate, .overrideEmissivity 3, .setReflectedTemperature (some 2),
    .useDefaultEmissivity, .overrideEmissivity 5, .dataAvailable] 1 = 5 := rfl

/-- **C49 (ambient temperature).** Only the methods that make images change the ambient temperature: it is the
one the last of them left, and still absent if there was none. -/
theorem C49_ambient_only_by_images (env : Env σ ER EW) (before after : List (Op F)) (d : Driver F σ)
    (h : ∀ op ∈ after, isImage op = false) :
    (runOps env (before ++ after) d).ambientTemp = (runOps env before d).ambientTemp := by
  unfold runOps
  rw [List.foldl_append]
  generalize List.foldl (fun d op => (op.exec env d).1) d before = d1
  induction after generalizing d1 with
  | nil => rfl
  | cons op ops ih =>
    rw [List.foldl_cons, ih (fun o ho => h o (List.mem_cons_of_mem _ ho))]
    have hi := h op (List.mem_cons_self ..)
    cases hl : isLocal op with
    | true => cases op <;> simp only [isLocal, Bool.false_eq_true] at hl <;> rfl
    | false => exact ((exec_keeps env op hl d1).2 hi).1

/-- **C49 (ambient temperature of an image).** When one of the unconditional image methods succeeds, the ambient
temperature is that of the frame it read and converted. (For `generate_image_if_ready` this is part of C44 and
C45; failures leave it alone by C45.) -/
theorem C49_ambient_of_last_image (env : Env σ ER EW) (d : Driver F (σ × List (Txn ER EW))) (dest : List F)
    (h : Supported (recordedEnv env) d) (sp : Subpage) (d' : Driver F (σ × List (Txn ER EW))) (dest' : List F) :
    (Driver.generateImageSubpageTo (recordedEnv env) sp dest d = (d', dest', .ok ()) →
      ∃ rs ts px ram tA, d.calib.cam.collectRanges env.mode sp d.accessPattern env.height = .ok rs ∧
        d'.bus.2 = d.bus.2 ++ ts ∧ FrameRead d.addr d.calib.cam rs sp d.pixelBuf ts px ram ∧
        toTemperatures (ER := ER) (EW := EW) env.mode d sp dest px ram = .ok (tA, dest') ∧
        d'.ambientTemp = some tA) ∧
    (Driver.generateRawImageSubpageTo (recordedEnv env) sp dest d = (d', dest', .ok ()) →
      ∃ rs ts px ram tA, d.calib.cam.collectRanges env.mode sp d.accessPattern env.height = .ok rs ∧
        d'.bus.2 = d.bus.2 ++ ts ∧ FrameRead d.addr d.calib.cam rs sp d.pixelBuf ts px ram ∧
        toRawImage (ER := ER) (EW := EW) env.mode d sp dest px ram = .ok (tA, dest') ∧
        d'.ambientTemp = some tA) := by
  constructor
  · intro hg
    rw [imageSubpage_eq] at hg
    obtain ⟨rs, ts, s', px, hrs, _, hc⟩ := imageWith_cases env d sp dest h
      (fun d => toTemperatures env.mode d sp dest) (fun d px ram e => toTemperatures_no_err _ _ _ _ _ _ _)
      (fun _ _ _ _ => rfl)
    have hm : (recordedEnv env).mode = env.mode := rfl
    rw [hm] at hg
    rcases hc with ⟨e, _, h5⟩ | ⟨ram, _, h5, ⟨tA, dest1, h6, h7⟩ | ⟨_, h7⟩⟩
    · rw [hg] at h5; simp at h5
    · rw [hg] at h7
      simp only [Prod.mk.injEq, and_true] at h7
      obtain ⟨rfl, rfl⟩ := h7
      exact ⟨rs, ts, px, ram, tA, hrs, rfl, h5, h6, rfl⟩
    · rw [hg] at h7; simp at h7
  · intro hg
    rw [rawImageSubpage_eq] at hg
    obtain ⟨rs, ts, s', px, hrs, _, hc⟩ := imageWith_cases env d sp dest h
      (fun d => toRawImage env.mode d sp dest) (fun d px ram e => toRawImage_no_err _ _ _ _ _ _ _)
      (fun _ _ _ _ => rfl)
    have hm : (recordedEnv env).mode = env.mode := rfl
    rw [hm] at hg
    rcases hc with ⟨e, _, h5⟩ | ⟨ram, _, h5, ⟨tA, dest1, h6, h7⟩ | ⟨_, h7⟩⟩
    · rw [hg] at h5; simp at h5
    · rw [hg] at h7
      simp only [Prod.mk.injEq, and_true] at h7
      obtain ⟨rfl, rfl⟩ := h7
      exact ⟨rs, ts, px, ram, tA, hrs, rfl, h5, h6, rfl⟩
    · rw [hg] at h7; simp at h7

/-! ### Traffic -/

theorem callTrace_nil (addr : Byte) : CallTrace (ER := ER) (EW := EW) addr [] :=
  ⟨fun _ ht => (nomatch ht), Or.inl fun _ ht => (nomatch ht)⟩

theorem callTrace_reads {addr : Byte} {ts : List (Txn ER EW)}
    (h : ∀ t ∈ ts, t.isWrite = false ∧ t.addr = addr) : CallTrace addr ts :=
  ⟨fun t ht => (h t ht).2, Or.inl fun t ht => (h t ht).1⟩

theorem callTrace_one (addr : Byte) (reg : Word) (res : Except ER Word) :
    CallTrace (EW := EW) addr [.readReg addr reg res] := by
  refine callTrace_reads fun t ht => ?_
  rw [List.mem_singleton] at ht
  subst ht
  exact ⟨rfl, rfl⟩

theorem callTrace_status {addr : Byte} {w w' : Word} {we : Option EW} {mid post : List (Txn ER EW)}
    (hm : ∀ t ∈ mid, RamRead addr t) (hp : ∀ t ∈ post, t.isWrite = false ∧ t.addr = addr)
    (hb : OnlyBits (fun i => i = 3 ∨ i = 4 ∨ i = 5) w w') :
    CallTrace addr (.readReg addr 0x8000#16 (.ok w) :: mid ++ .writeReg addr 0x8000#16 w' we :: post) := by
  refine ⟨?_, Or.inr (Or.inl ⟨w, w', ⟨we, mid, post, rfl, ?_, fun t ht => (hp t ht).1⟩, hb⟩)⟩
  · intro t ht
    simp only [List.cons_append, List.mem_cons, List.mem_append] at ht
    rcases ht with rfl | ht | rfl | ht
    · rfl
    · exact (hm t ht).2.1
    · rfl
    · exact (hp t ht).2
  · intro t ht
    exact ⟨(hm t ht).1, (hm t ht).2.2 _ (by decide)⟩

theorem callTrace_control {addr : Byte} {w w' : Word} {we : Option EW} {f : CtrlField}
    (hb : OnlyBits (CtrlField.Covers f) w w') :
    CallTrace (ER := ER) addr [.readReg addr 0x800D#16 (.ok w), .writeReg addr 0x800D#16 w' we] := by
  refine ⟨?_, Or.inr (Or.inr ⟨w, w', f, ⟨we, [], [], rfl, fun t ht => (nomatch ht), fun t ht => (nomatch ht)⟩, hb⟩)⟩
  intro t ht
  simp only [List.mem_cons, List.not_mem_nil, or_false] at ht
  rcases ht with rfl | rfl <;> rfl

/-- **C52.** On any bus, after any history: the transactions of a driver call all go to the driver's I²C address,
and are either only reads or one read-modify-write of the status or the control register. What is written
is the word received from that register in the same call, with no later read of it in between, except for bits
3, 4 and 5 of the status register or the bits of one documented field of the control register; in particular
reserved bits survive. -/
theorem C52_each_call (env : Env σ ER EW) (d : Driver F (σ × List (Txn ER EW)))
    (h : Supported (recordedEnv env) d) (op : Op F) :
    ∃ ts, (op.exec (recordedEnv env) d).1.bus.2 = d.bus.2 ++ ts ∧ CallTrace d.addr ts := by
  have hb : (recordedEnv env).bus = recorded env.bus := rfl
  refine op_cases (recordedEnv env) (P := fun op => ∃ ts, (op.exec (recordedEnv env) d).1.bus.2 = d.bus.2 ++ ts ∧
    CallTrace d.addr ts) ?_ ?_ ?_ ?_ ?_ ?_ ?_ ?_ ?_ ?_ ?_ ?_ ?_ op
  · intro op f hf he _ _ _ _
    rw [he]
    obtain ⟨s', res, d', r, h1, h2, _⟩ := C40_control_getters env d f hf
    unfold discard
    rw [h1]
    exact ⟨_, by rw [h2], callTrace_one ..⟩
  · intro op f hf v he _ _ _ _
    rw [he]
    unfold discard
    obtain ⟨d', r, h1, ⟨e, h2, _⟩ | ⟨w, h2, _⟩ | ⟨w, w', we, h2, _, h3, _⟩, _⟩ := C41_control_setters env d f hf v
    · rw [h1]; exact ⟨_, h2, callTrace_one ..⟩
    · rw [h1]; exact ⟨_, h2, callTrace_one ..⟩
    · rw [h1]
      refine ⟨_, h2, callTrace_control (f := f) ?_⟩
      intro i hi
      rw [h3 i, if_neg hi]
  · intro op he _ _ _ _
    rw [he]
    simp only [hb, regRead_recorded]
    exact ⟨_, rfl, callTrace_one ..⟩
  · intro v
    show ∃ ts, (Driver.setOverwriteEnabled (recordedEnv env) v d).1.bus.2 = _ ∧ _
    obtain ⟨d', r, h1, ⟨e, h2, _⟩ | ⟨w, h2, _⟩ | ⟨w, w', we, h2, _, h3, _⟩⟩ := C41_overwrite_setter env d v
    · rw [h1]; exact ⟨_, h2, callTrace_one ..⟩
    · rw [h1]; exact ⟨_, h2, callTrace_one ..⟩
    · rw [h1]
      refine ⟨_, h2, callTrace_status (mid := []) (post := []) (fun t ht => (nomatch ht)) (fun t ht => (nomatch ht)) ?_⟩
      intro i hi
      rw [h3 i, if_neg (by omega)]
  · show ∃ ts, (Driver.resetDataAvailable (recordedEnv env) d).1.bus.2 = _ ∧ _
    obtain ⟨d', r, h1, ⟨e, h2, _⟩ | ⟨w, w', we, h2, h3, _⟩⟩ := (C42_data_available_flag env d).2
    · rw [h1]; exact ⟨_, h2, callTrace_one ..⟩
    · rw [h1]
      refine ⟨_, h2, callTrace_status (mid := []) (post := []) (fun t ht => (nomatch ht)) (fun t ht => (nomatch ht)) ?_⟩
      intro i hi
      rw [h3 i, if_neg (by omega)]
  · intro v; exact ⟨[], (List.append_nil _).symm, callTrace_nil _⟩
  · exact ⟨[], (List.append_nil _).symm, callTrace_nil _⟩
  · intro v; exact ⟨[], (List.append_nil _).symm, callTrace_nil _⟩
  · intro sp dest
    obtain ⟨ts, h1, h2⟩ := imageWith_reads env d sp dest (fun d => toRawImage (recordedEnv env).mode d sp dest)
    exact ⟨ts, h1, callTrace_reads h2⟩
  · intro sp dest
    obtain ⟨ts, h1, h2⟩ := imageWith_reads env d sp dest (fun d => toTemperatures (recordedEnv env).mode d sp dest)
    exact ⟨ts, h1, callTrace_reads h2⟩
  · intro dest
    obtain ⟨ts, h1, h2⟩ := generateImageTo_reads env d dest
    exact ⟨ts, h1, callTrace_reads h2⟩
  · intro dest
    show ∃ ts, (Driver.generateImageIfReady (recordedEnv env) dest d).1.bus.2 = _ ∧ _
    obtain ⟨e, h1, _⟩ | ⟨w, _, h1, _⟩ | ⟨w, ts, e, _, h1, _, h3, _⟩ |
      ⟨w, ts, _, h1, _, h3, _⟩ | ⟨w, w', ts, we, _, h1, _, h3, h4, _⟩ := ifReady_cases env d dest h _ rfl
    · exact ⟨_, h1, callTrace_one ..⟩
    · exact ⟨_, h1, callTrace_one ..⟩
    · refine ⟨_, h1, callTrace_reads fun t ht => ?_⟩
      rcases List.mem_cons.1 ht with rfl | ht
      · exact ⟨rfl, rfl⟩
      · exact ⟨(h3 t ht).1, (h3 t ht).2.1⟩
    · refine ⟨_, h1, callTrace_reads fun t ht => ?_⟩
      rcases List.mem_cons.1 ht with rfl | ht
      · exact ⟨rfl, rfl⟩
      · exact ⟨(h3 t ht).1, (h3 t ht).2.1⟩
    · refine ⟨_, h1, callTrace_status h3 (fun t ht => nomatch ht) ?_⟩
      intro i hi
      rw [h4 i, if_neg (by omega)]
  · intro fuel
    show ∃ ts, (Driver.synchronize (recordedEnv env) fuel d).1.bus.2 = _ ∧ _
    obtain ⟨s', ts, r, h1, ⟨e, h2, _⟩ | ⟨w, w', we, polls, h2, h3, h4⟩⟩ :=
      C48_synchronize_waits_for_fresh_data env fuel d
    · rw [h1]; exact ⟨ts, rfl, by rw [h2]; exact callTrace_one ..⟩
    · rw [h1]
      refine ⟨ts, rfl, ?_⟩
      rw [h2]
      refine callTrace_status (mid := []) (fun t ht => (nomatch ht)) ?_ ?_
      · intro t ht
        rcases h4 with ⟨e, _, h5, _⟩ | ⟨_, stale, _, h6⟩
        · rw [h5] at ht; cases ht
        · have hmap : ∀ t ∈ stale.map (fun w => Txn.readReg (ER := ER) (EW := EW) d.addr 0x8000#16 (.ok w)),
              t.isWrite = false ∧ t.addr = d.addr := by
            intro t ht
            obtain ⟨w, _, rfl⟩ := List.mem_map.1 ht
            exact ⟨rfl, rfl⟩
          rcases h6 with ⟨w1, _, _, _, h7⟩ | ⟨e, _, _, h7⟩ | ⟨_, _, h7⟩
          · rw [h7] at ht
            rcases List.mem_append.1 ht with ht | ht
            · exact hmap t ht
            · rw [List.mem_singleton] at ht; subst ht; exact ⟨rfl, rfl⟩
          · rw [h7] at ht
            rcases List.mem_append.1 ht with ht | ht
            · exact hmap t ht
            · rw [List.mem_singleton] at ht; subst ht; exact ⟨rfl, rfl⟩
          · rw [h7] at ht; exact hmap t ht
      · intro i hi
        rw [h3 i, if_neg (by omega), if_neg (by omega)]

/-- **C52 (histories).** The same for a call at the end of any history. -/
theorem C52_reserved_bits_survive (env : Env σ ER EW) (d : Driver F (σ × List (Txn ER EW)))
    (h : Supported (recordedEnv env) d) (history : List (Op F)) (op : Op F) :
    ∃ ts, (runOps (recordedEnv env) (history ++ [op]) d).bus.2 =
        (runOps (recordedEnv env) history d).bus.2 ++ ts ∧ CallTrace d.addr ts := by
  obtain ⟨hs, ha, _⟩ := runOps_supported h history
  obtain ⟨ts, h1, h2⟩ := C52_each_call env _ hs op
  refine ⟨ts, ?_, by rw [← ha]; exact h2⟩
  rw [← h1]
  unfold runOps
  rw [List.foldl_append]
  rfl

theorem constructed_reads {m : Mode} {b : Bus σ ER EW} {s : σ × List (Txn ER EW)} {addr : Byte} {env : Env σ ER EW}
    {d : Driver F (σ × List (Txn ER EW))} (h : Constructed m b s addr env d) :
    Supported (recordedEnv env) d ∧ d.addr = addr ∧
      ∃ ts, d.bus.2 = s.2 ++ ts ∧ ∀ t ∈ ts, t.isWrite = false ∧ t.addr = addr := by
  have key : ∀ (C : Type) (fromData : List Byte → Res LibErr C) (toCalib : C → Calib F) (n : Nat)
      (s' : σ × List (Txn ER EW)), Driver.new fromData toCalib (recorded b) n s addr = (s', .ok d) →
      ∃ ts, d.bus.2 = s.2 ++ ts ∧ ∀ t ∈ ts, t.isWrite = false ∧ t.addr = addr := by
    intro C fromData toCalib n s' hd
    obtain ⟨s1, eeprom, ts, outcome, h1, h2⟩ := C39_construction fromData toCalib b n s addr
    rw [hd] at h1
    simp only [Prod.mk.injEq] at h1
    obtain ⟨_, rfl⟩ := h1
    cases eeprom with
    | error e => simp at h2
    | ok bytes =>
      simp only at h2
      obtain ⟨_, h2⟩ := h2
      cases hc : fromData bytes with
      | err e => rw [hc] at h2; simp at h2
      | panic => rw [hc] at h2; simp at h2
      | ok c =>
        rw [hc] at h2
        obtain ⟨control, h3, h4⟩ := h2
        cases control with
        | error e => simp at h4
        | ok w =>
          obtain ⟨d1, h5, h6, _⟩ := h4
          cases h5
          refine ⟨ts, by rw [h6], ?_⟩
          intro t ht
          rw [h3] at ht
          simp only [List.mem_cons, List.not_mem_nil, or_false] at ht
          rcases ht with rfl | rfl <;> exact ⟨rfl, rfl⟩
  rcases h with ⟨rfl, s', hd⟩ | ⟨rfl, s', hd⟩
  · have h1 := (C39_constructed_drivers_supported m (recorded b) s addr).1 s' d hd
    exact ⟨h1.1, h1.2, key _ _ _ _ _ hd⟩
  · have h1 := (C39_constructed_drivers_supported m (recorded b) s addr).2 s' d hd
    exact ⟨h1.1, h1.2, key _ _ _ _ _ hd⟩

/-- **C49 (ambient temperature, each call).** A call either reads a whole frame, and then the ambient temperature is that
of this frame, or it makes no image and leaves the ambient temperature as it was. -/
theorem C49_ambient_each_call (env : Env σ ER EW) (d : Driver F (σ × List (Txn ER EW)))
    (h : Supported (recordedEnv env) d) (op : Op F) :
    ∃ ts, (op.exec (recordedEnv env) d).1.bus.2 = d.bus.2 ++ ts ∧
      ((∃ tA, MeasuredBy env d op ts tA ∧ (op.exec (recordedEnv env) d).1.ambientTemp = some tA) ∨
       (NoImage d op ts (op.exec (recordedEnv env) d).2 ∧
        (op.exec (recordedEnv env) d).1.ambientTemp = d.ambientTemp)) := by
  have hm : (recordedEnv env).mode = env.mode := rfl
  cases hi : isImage op with
  | false =>
    obtain ⟨ts, h1, _⟩ := C52_each_call env d h op
    have := C49_ambient_only_by_images (recordedEnv env) [] [op] d (fun o ho => by
      rw [List.mem_singleton.1 ho]; exact hi)
    exact ⟨ts, h1, Or.inr ⟨Or.inl hi, this⟩⟩
  | true =>
    cases op with
    | generateRawImageSubpageTo sp dest =>
      obtain ⟨rs, ts, s', px, hrs, _, hc⟩ := imageWith_cases env d sp dest h
        (fun d => toRawImage env.mode d sp dest) (fun d px ram e => toRawImage_no_err _ _ _ _ _ _ _)
        (fun _ _ _ _ => rfl)
      have he : (Op.generateRawImageSubpageTo sp dest).exec (recordedEnv env) d = discardImage (imageWith (recordedEnv env) sp dest d
        (fun d => toRawImage env.mode d sp dest)) := rfl
      rcases hc with ⟨e, hf, h5⟩ | ⟨ram, _, h5, ⟨tA, dest1, h6, h7⟩ | ⟨_, h7⟩⟩
      · obtain ⟨e', rfl⟩ := hf.fails.2
        rw [he, h5]
        exact ⟨ts, rfl, Or.inr ⟨Or.inr (Or.inl ⟨e', rfl⟩), rfl⟩⟩
      · rw [he, h7]
        exact ⟨ts, rfl, Or.inl ⟨tA, ⟨sp, rs, ts, px, ram, dest1, hrs, h5, rfl, rfl, h6⟩, rfl⟩⟩
      · rw [he, h7]
        exact ⟨ts, rfl, Or.inr ⟨Or.inr (Or.inr (Or.inl rfl)), rfl⟩⟩
    | generateImageSubpageTo sp dest =>
      obtain ⟨rs, ts, s', px, hrs, _, hc⟩ := imageWith_cases env d sp dest h
        (fun d => toTemperatures env.mode d sp dest) (fun d px ram e => toTemperatures_no_err _ _ _ _ _ _ _)
        (fun _ _ _ _ => rfl)
      have he : (Op.generateImageSubpageTo sp dest).exec (recordedEnv env) d = discardImage (imageWith (recordedEnv env) sp dest d
        (fun d => toTemperatures env.mode d sp dest)) := rfl
      rcases hc with ⟨e, hf, h5⟩ | ⟨ram, _, h5, ⟨tA, dest1, h6, h7⟩ | ⟨_, h7⟩⟩
      · obtain ⟨e', rfl⟩ := hf.fails.2
        rw [he, h5]
        exact ⟨ts, rfl, Or.inr ⟨Or.inr (Or.inl ⟨e', rfl⟩), rfl⟩⟩
      · rw [he, h7]
        exact ⟨ts, rfl, Or.inl ⟨tA, ⟨sp, rs, ts, px, ram, dest1, hrs, h5, rfl, rfl, h6⟩, rfl⟩⟩
      · rw [he, h7]
        exact ⟨ts, rfl, Or.inr ⟨Or.inr (Or.inr (Or.inl rfl)), rfl⟩⟩
    | generateImageTo dest =>
      have he : (Op.generateImageTo dest).exec (recordedEnv env) d =
        discardImage (Driver.generateImageTo (recordedEnv env) dest d) := rfl
      rw [he, generateImageTo_eq, show (recordedEnv env).bus = recorded env.bus from rfl, regRead_recorded]
      generalize regRead env.bus d.bus.1 d.addr 0x8000#16 = q
      obtain ⟨s1, e | w⟩ := q
      · exact ⟨_, rfl, Or.inr ⟨Or.inr (Or.inl ⟨e, rfl⟩), rfl⟩⟩
      · simp only
        let d1 : Driver F (σ × List (Txn ER EW)) := { d with bus := (s1, d.bus.2 ++ [.readReg d.addr 0x8000#16 (.ok w)]) }
        obtain ⟨rs, ts, s', px, hrs, _, hc⟩ := imageWith_cases env d1 (statusSubpage w) dest ⟨h.1, h.2, h.3⟩
          (fun d => toTemperatures env.mode d (statusSubpage w) dest) (fun d px ram e => toTemperatures_no_err _ _ _ _ _ _ _)
          (fun _ _ _ _ => rfl)
        have ha : ∀ s' : σ, ((s', d1.bus.2 ++ ts) : σ × List (Txn ER EW)).2 =
            d.bus.2 ++ (.readReg d.addr 0x8000#16 (.ok w) :: ts) := fun s' => by
          show (d.bus.2 ++ [_]) ++ ts = _
          rw [List.append_assoc]; rfl
        have he' : Driver.generateImageSubpageTo (recordedEnv env) (if w.getLsbD 0 then .one else .zero) dest d1 =
          imageWith (recordedEnv env) (statusSubpage w) dest d1 (fun d => toTemperatures env.mode d (statusSubpage w) dest) := rfl
        rw [show ({ d with bus := (s1, d.bus.2 ++ [.readReg d.addr 0x8000#16 (.ok w)]) } : Driver F (σ × List (Txn ER EW))) = d1
          from rfl, he']
        rcases hc with ⟨e, hf, h5⟩ | ⟨ram, _, h5, ⟨tA, dest1, h6, h7⟩ | ⟨_, h7⟩⟩
        · obtain ⟨e', rfl⟩ := hf.fails.2
          rw [h5]
          exact ⟨_, ha s', Or.inr ⟨Or.inr (Or.inl ⟨e', rfl⟩), rfl⟩⟩
        · rw [h7]
          exact ⟨_, ha s', Or.inl ⟨tA, ⟨statusSubpage w, rs, ts, px, ram, dest1, hrs, h5, w, rfl, rfl, h6⟩, rfl⟩⟩
        · rw [h7]
          exact ⟨_, ha s', Or.inr ⟨Or.inr (Or.inr (Or.inl rfl)), rfl⟩⟩
    | generateImageIfReady dest =>
      have he : (Op.generateImageIfReady dest).exec (recordedEnv env) d =
        discardImage (Driver.generateImageIfReady (recordedEnv env) dest d) := rfl
      rw [he]
      have hc := ifReady_cases env d dest h _ rfl
      generalize Driver.generateImageIfReady (recordedEnv env) dest d = out at hc
      obtain ⟨d', dest', r⟩ := out
      have hd : ∀ d1 : Driver F (σ × List (Txn ER EW)), (discardImage (d1, dest', r) : _ × Res (Err ER EW) Unit).1 = d1 := fun _ => rfl
      rcases hc with ⟨e, h1, _, h2, h3⟩ | ⟨w, hw, h1, _, h2, h3⟩ | ⟨w, ts, e, hw, h1, _, _, _, h2, h3⟩ |
        ⟨w, ts, hw, h1, _, _, _, h2, h3⟩ | ⟨w, w', ts, we, hw, h1, _, _, _, h2, h3⟩
      · simp only at h1 h2 h3
        refine ⟨_, h1, Or.inr ⟨Or.inr (Or.inl ⟨e, ?_⟩), ?_⟩⟩
        · rw [h2]; rfl
        · show d'.ambientTemp = _
          rw [h3]; rfl
      · simp only at h1 h2 h3
        refine ⟨_, h1, Or.inr ⟨Or.inr (Or.inr (Or.inr ⟨dest, w, rfl, rfl, hw⟩)), ?_⟩⟩
        show d'.ambientTemp = _
        rw [h3]; rfl
      · simp only at h1 h2 h3
        refine ⟨_, h1, Or.inr ⟨Or.inr (Or.inl ⟨e, ?_⟩), ?_⟩⟩
        · rw [h2]; rfl
        · show d'.ambientTemp = _
          rw [h3]; rfl
      · simp only at h1 h2 h3
        refine ⟨_, h1, Or.inr ⟨Or.inr (Or.inr (Or.inl ?_)), ?_⟩⟩
        · rw [h2]; rfl
        · show d'.ambientTemp = _
          rw [h3]; rfl
      · simp only at h1 h2 h3
        obtain ⟨rs, px, ram, tA, h4, h5, h6, h7, _⟩ := h2
        exact ⟨_, h1, Or.inl ⟨tA, ⟨statusSubpage w, rs, ts, px, ram, dest', h4, h5, w, w', we, hw, rfl, rfl, h6⟩, h7⟩⟩
    | _ => cases hi

/-- **C49 (ambient temperature, histories).** After any history of calls of a new driver, on any bus, the ambient
temperature is absent if no call has made an image, and otherwise that of the frame read by the last call that did. -/
theorem C49_ambient_history (m : Mode) (b : Bus σ ER EW) (s : σ × List (Txn ER EW)) (addr : Byte)
    (env : Env σ ER EW) (d : Driver F (σ × List (Txn ER EW))) (h : Constructed m b s addr env d) (ops : List (Op F)) :
    ((runOps (recordedEnv env) ops d).ambientTemp = none ∧ NoImages (recordedEnv env) ops d) ∨
    (∃ before op after ts tA, ops = before ++ op :: after ∧
      (runOps (recordedEnv env) (before ++ [op]) d).bus.2 = (runOps (recordedEnv env) before d).bus.2 ++ ts ∧
      MeasuredBy env (runOps (recordedEnv env) before d) op ts tA ∧
      (runOps (recordedEnv env) ops d).ambientTemp = some tA ∧
      NoImages (recordedEnv env) after (runOps (recordedEnv env) (before ++ [op]) d)) := by
  have key : ∀ (ops : List (Op F)) (d : Driver F (σ × List (Txn ER EW))), Supported (recordedEnv env) d →
      ((runOps (recordedEnv env) ops d).ambientTemp = d.ambientTemp ∧ NoImages (recordedEnv env) ops d) ∨
      (∃ before op after ts tA, ops = before ++ op :: after ∧
        (runOps (recordedEnv env) (before ++ [op]) d).bus.2 = (runOps (recordedEnv env) before d).bus.2 ++ ts ∧
        MeasuredBy env (runOps (recordedEnv env) before d) op ts tA ∧
        (runOps (recordedEnv env) ops d).ambientTemp = some tA ∧
        NoImages (recordedEnv env) after (runOps (recordedEnv env) (before ++ [op]) d)) := by
    intro ops
    induction ops with
    | nil => intro d _; exact Or.inl ⟨rfl, trivial⟩
    | cons op ops ih =>
      intro d hs
      have hs1 : Supported (recordedEnv env) (op.exec (recordedEnv env) d).1 := (runOps_supported hs [op]).1
      rcases ih _ hs1 with ⟨h1, h2⟩ | ⟨before, op', after, ts, tA, h1, h2, h3, h4, h5⟩
      · obtain ⟨ts, h3, ⟨tA, h4, h5⟩ | ⟨h4, h5⟩⟩ := C49_ambient_each_call env d hs op
        · exact Or.inr ⟨[], op, ops, ts, tA, rfl, h3, h4, h1.trans h5, h2⟩
        · exact Or.inl ⟨h1.trans h5, ⟨ts, h3, h4⟩, h2⟩
      · exact Or.inr ⟨op :: before, op', after, ts, tA, by rw [h1]; rfl, h2, h3, h4, h5⟩
  have hn : d.ambientTemp = none := by
    have new : ∀ (C : Type) (fromData : List Byte → Res LibErr C) (toCalib : C → Calib F) (n : Nat)
        (s' : σ × List (Txn ER EW)), Driver.new fromData toCalib (recorded b) n s addr = (s', .ok d) → d.ambientTemp = none := by
      intro C fromData toCalib n s' hd
      obtain ⟨s1, eeprom, ts, outcome, h1, h2⟩ := C39_construction fromData toCalib b n s addr
      rw [hd] at h1
      simp only [Prod.mk.injEq] at h1
      obtain ⟨_, rfl⟩ := h1
      cases eeprom with
      | error e => simp at h2
      | ok bytes =>
        simp only at h2
        obtain ⟨_, h2⟩ := h2
        cases hc : fromData bytes with
        | err e => rw [hc] at h2; simp at h2
        | panic => rw [hc] at h2; simp at h2
        | ok c =>
          rw [hc] at h2
          obtain ⟨control, h3, h4⟩ := h2
          cases control with
          | error e => simp at h4
          | ok w =>
            obtain ⟨d1, h5, _, _, _, _, _, _, h6, _⟩ := h4
            cases h5
            exact h6
    rcases h with ⟨rfl, s', hd⟩ | ⟨rfl, s', hd⟩
    · exact new _ _ _ _ _ hd
    · exact new _ _ _ _ _ hd
  have := key ops d (constructed_reads h).1
  rwa [hn] at this

theorem callTrace_writes {addr : Byte} {ts : List (Txn ER EW)} (h : CallTrace addr ts) :
    ∀ t ∈ ts, t.addr = addr ∧ (t.isWrite = true →
      ∃ w we, t = .writeReg addr 0x8000#16 w we ∨ t = .writeReg addr 0x800D#16 w we) := by
  intro t ht
  refine ⟨h.1 t ht, fun hw => ?_⟩
  have hrmw : ∀ reg w w', ReadModifyWrite addr reg w w' ts → ∃ we, t = .writeReg addr reg w' we := by
    rintro reg w w' ⟨we, mid, post, h1, h2, h3⟩
    rw [h1] at ht
    simp only [List.cons_append, List.mem_cons, List.mem_append] at ht
    rcases ht with rfl | ht | rfl | ht
    · cases hw
    · rw [(h2 t ht).1] at hw; cases hw
    · exact ⟨we, rfl⟩
    · rw [h3 t ht] at hw; cases hw
  rcases h.2 with h1 | ⟨w, w', h1, _⟩ | ⟨w, w', f, h1, _⟩
  · rw [h1 t ht] at hw; cases hw
  · obtain ⟨we, h2⟩ := hrmw _ _ _ h1
    exact ⟨w', we, Or.inl h2⟩
  · obtain ⟨we, h2⟩ := hrmw _ _ _ h1
    exact ⟨w', we, Or.inr h2⟩

theorem history_writes (env : Env σ ER EW) (ops : List (Op F)) (d : Driver F (σ × List (Txn ER EW)))
    (h : Supported (recordedEnv env) d) :
    ∃ ts, (runOps (recordedEnv env) ops d).bus.2 = d.bus.2 ++ ts ∧
      ∀ t ∈ ts, t.addr = d.addr ∧ (t.isWrite = true →
        ∃ w we, t = .writeReg d.addr 0x8000#16 w we ∨ t = .writeReg d.addr 0x800D#16 w we) := by
  induction ops generalizing d with
  | nil => exact ⟨[], (List.append_nil _).symm, fun t ht => nomatch ht⟩
  | cons op ops ih =>
    obtain ⟨ts1, h1, h2⟩ := C52_each_call env d h op
    obtain ⟨hs, ha, _⟩ := exec_supported h op
    obtain ⟨ts2, h3, h4⟩ := ih (op.exec (recordedEnv env) d).1 hs
    refine ⟨ts1 ++ ts2, ?_, ?_⟩
    · show (runOps (recordedEnv env) ops (op.exec (recordedEnv env) d).1).bus.2 = _
      rw [h3, h1, List.append_assoc]
    · intro t ht
      rcases List.mem_append.1 ht with ht | ht
      · exact callTrace_writes h2 t ht
      · rw [ha] at h4; exact h4 t ht

/-- **C50.** From construction on, over any history of calls and on any bus, each write is one four-byte message
storing a word in register 0x8000 or 0x800D; EEPROM and RAM are never written. -/
theorem C50_only_two_registers_written (m : Mode) (b : Bus σ ER EW) (s : σ × List (Txn ER EW)) (addr : Byte)
    (env : Env σ ER EW) (d : Driver F (σ × List (Txn ER EW))) (h : Constructed m b s addr env d)
    (ops : List (Op F)) :
    ∃ ts, (runOps (recordedEnv env) ops d).bus.2 = s.2 ++ ts ∧
      ∀ t ∈ ts, t.isWrite = true → ∃ hi lo we, t = .write addr [0x80#8, 0x00#8, hi, lo] we ∨
        t = .write addr [0x80#8, 0x0D#8, hi, lo] we := by
  obtain ⟨hs, ha, ts1, h1, h2⟩ := constructed_reads h
  obtain ⟨ts2, h3, h4⟩ := history_writes env ops d hs
  refine ⟨ts1 ++ ts2, by rw [h3, h1, List.append_assoc], ?_⟩
  intro t ht hw
  rcases List.mem_append.1 ht with ht | ht
  · rw [(h2 t ht).1] at hw; cases hw
  · obtain ⟨w, we, h5⟩ := (h4 t ht).2 hw
    rw [ha] at h5
    exact ⟨hiByte w, loByte w, we, h5⟩

/-- **C53.** From construction on, over any history of calls and on any bus, every transaction goes to the I²C
address given to the constructor. -/
theorem C53_only_configured_address (m : Mode) (b : Bus σ ER EW) (s : σ × List (Txn ER EW)) (addr : Byte)
    (env : Env σ ER EW) (d : Driver F (σ × List (Txn ER EW))) (h : Constructed m b s addr env d)
    (ops : List (Op F)) :
    ∃ ts, (runOps (recordedEnv env) ops d).bus.2 = s.2 ++ ts ∧ ∀ t ∈ ts, t.addr = addr := by
  obtain ⟨hs, ha, ts1, h1, h2⟩ := constructed_reads h
  obtain ⟨ts2, h3, h4⟩ := history_writes env ops d hs
  refine ⟨ts1 ++ ts2, by rw [h3, h1, List.append_assoc], ?_⟩
  intro t ht
  rcases List.mem_append.1 ht with ht | ht
  · exact (h2 t ht).2
  · rw [← ha]; exact (h4 t ht).1

end Mlx.Props
