import Verif.Proofs.Heard
import Verif.Props.Access
import Verif.Props.Thermometer
/-
C99: on any bus, images are made of what was last heard.
-/
set_option linter.unusedSectionVars false
set_option autoImplicit false
namespace Mlx.Props
open Mlx Mlx.Spec Mlx.Proofs F32Ops
variable {F σ ER EW : Type} [F32Ops F]

theorem frameRead_follows {addr : Byte} {cam : Cam} {rs : List PixelRange} {sp : Subpage} {old : List Byte}
    {ts : List (Txn ER EW)} {px : List Byte} {ram : RamData} (h : FrameRead addr cam rs sp old ts px ram) :
    Follows addr (ramPlan cam rs sp) ts none := by
  obtain ⟨chunks, vbe, ptat, vdd, gain, cp, hl, rfl, -, -⟩ := h
  unfold ramPlan
  induction rs generalizing chunks with
  | nil =>
    show Follows addr [_, _, _, _, _] ([] ++ [_, _, _, _, _]) none
    exact .next rfl (.next rfl (.next rfl (.next rfl (.next rfl .done))))
  | cons r rs ih =>
    cases chunks with
    | nil => simp at hl
    | cons c cs =>
      simp only [List.map_cons, List.cons.injEq] at hl
      exact .next hl.1 (ih cs hl.2)

/-- The driver states of two cameras that make the same images of the same frames. -/
structure SameSettings {τ : Type} (d : Driver F σ) (e : Driver F τ) : Prop where
  addr : e.addr = d.addr
  calib : e.calib = d.calib
  emissivity : e.emissivity = d.emissivity
  reflected : e.reflected = d.reflected
  pattern : e.accessPattern = d.accessPattern
  resCorr : e.resCorr = d.resCorr

section
variable {env : Env σ ER EW} {d : Driver F (σ × List (Txn ER EW))} {e : Driver F (Word → Word)}

theorem still_alike (h : SameSettings d e) (V : Word → Word) (sp : Subpage) (i : Nat) : Alike d e V V sp i where
  cam := by rw [h.calib]
  emissivity := h.emissivity.symm
  reflected := h.reflected.symm
  pattern := h.pattern.symm
  resCorr := h.resCorr.symm
  frame := by rw [h.calib]; constructor <;> rfl
  pixel _ := by rw [h.calib]; constructor <;> rfl
  readings := rfl
  word _ _ _ := rfl

/-- The frame that was read would give the same image on a camera that holds still. -/
theorem still_image (hs : Supported (recordedEnv env) d) (hk : Complete d.calib d.calib.cam.numPixels) (he : SameSettings d e)
    (hse : Supported ⟨env.mode, env.height, cameraBus d.addr⟩ e) {sp : Subpage} {rs : List PixelRange}
    (hr : d.calib.cam.collectRanges env.mode sp d.accessPattern env.height = .ok rs) {ts : List (Txn ER EW)} {px : List Byte}
    {ram : RamData} (h : FrameRead d.addr d.calib.cam rs sp d.pixelBuf ts px ram) (log : List (Txn ER EW))
    (hV : ∀ a w, a.toNat < 0x0800 → lastWord d.addr a (log ++ ts) = some w → e.bus a = w) (dest dest' : List F) (tA : F) :
    (toRawImage (ER := ER) (EW := EW) env.mode d sp dest px ram = .ok (tA, dest') →
      ∃ e', Driver.generateRawImageSubpageTo ⟨env.mode, env.height, cameraBus d.addr⟩ sp dest e = (e', dest', .ok ()) ∧
        e'.ambientTemp = some tA) ∧
    (toTemperatures (ER := ER) (EW := EW) env.mode d sp dest px ram = .ok (tA, dest') →
      ∃ e', Driver.generateImageSubpageTo ⟨env.mode, env.height, cameraBus d.addr⟩ sp dest e = (e', dest', .ok ()) ∧
        e'.ambientTemp = some tA) := by
  obtain ⟨hram, hpx⟩ := frame_heard (env := recordedEnv env) hs hr (frameRead_follows h) h log e.bus hV
  subst hram
  have hke : Complete e.calib e.calib.cam.numPixels := by rw [he.calib]; exact hk
  have hst : StaticMemory (cameraBus d.addr) e.addr id := by rw [he.addr]; exact cameraBus_static _
  have hsv : Serves (cameraBus d.addr) e.calib.cam e.addr id := by rw [he.addr]; exact cameraBus_serves _ _
  have healthy : (env.mode = .wrapping ∨ Fits16 ((id e.bus e.calib.cam.vddPixel).toInt - e.calib.vdd25)) → ∀ op : Op F,
      (op.exec ⟨env.mode, env.height, cameraBus d.addr⟩ e).2 = .ok () :=
    fun hf op => healthy_call hse hke.kSTo hst hsv hf op
  have hfit : ∀ {r : Prop}, (r ↔ env.mode = .checked ∧ ¬ (-32768 ≤ (frameReadings d.calib.cam sp e.bus).vddPixel - d.calib.vdd25 ∧
      (frameReadings d.calib.cam sp e.bus).vddPixel - d.calib.vdd25 ≤ 32767)) → ¬ r →
      env.mode = .wrapping ∨ Fits16 ((id e.bus e.calib.cam.vddPixel).toInt - e.calib.vdd25) := by
    intro r hr hn
    rw [hr] at hn
    rw [he.calib]
    cases hm : env.mode with
    | wrapping => exact Or.inl rfl
    | checked =>
      refine Or.inr ?_
      by_contra hc
      exact hn ⟨hm, hc⟩
  constructor
  · intro hc
    have hf := hfit (toRawImage_panic (ER := ER) (EW := EW) env.mode d sp dest px _) (by rw [hc]; exact fun h => nomatch h)
    have hop := healthy hf (.generateRawImageSubpageTo sp dest)
    cases hg : Driver.generateRawImageSubpageTo ⟨env.mode, env.height, cameraBus d.addr⟩ sp dest e with
    | mk e' rest =>
      obtain ⟨out, r⟩ := rest
      have hr : r = .ok () := by
        have : (discardImage (Driver.generateRawImageSubpageTo ⟨env.mode, env.height, cameraBus d.addr⟩ sp dest e)).2 = .ok () := hop
        rw [hg] at this
        cases r with
        | ok u => rfl
        | err e => exact nomatch this
        | panic => exact nomatch this
      subst hr
      obtain ⟨px', tA', hpx', hconv', hamb', -⟩ := (C55_frame_of_memory ⟨env.mode, env.height, cameraBus d.addr⟩ e hse hst sp dest
        out e').2 hg
      have hall := fun i => (alike_converted env.mode d e hk hke sp i e.bus e.bus (still_alike he e.bus sp i) dest dest' dest out rfl
        px px' hpx hpx' tA tA').1 hc hconv'
      exact ⟨e', by rw [List.ext_getElem? fun i => (hall i).2], by rw [hamb', (hall 0).1]⟩
  · intro hc
    have hf := hfit (toTemperatures_panic (ER := ER) (EW := EW) env.mode d sp dest px _ hk.kSTo) (by rw [hc]; exact fun h => nomatch h)
    have hop := healthy hf (.generateImageSubpageTo sp dest)
    cases hg : Driver.generateImageSubpageTo ⟨env.mode, env.height, cameraBus d.addr⟩ sp dest e with
    | mk e' rest =>
      obtain ⟨out, r⟩ := rest
      have hr : r = .ok () := by
        have : (discardImage (Driver.generateImageSubpageTo ⟨env.mode, env.height, cameraBus d.addr⟩ sp dest e)).2 = .ok () := hop
        rw [hg] at this
        cases r with
        | ok u => rfl
        | err e => exact nomatch this
        | panic => exact nomatch this
      subst hr
      obtain ⟨px', tA', hpx', hconv', hamb', -⟩ := (C55_frame_of_memory ⟨env.mode, env.height, cameraBus d.addr⟩ e hse hst sp dest
        out e').1 hg
      have hall := fun i => (alike_converted env.mode d e hk hke sp i e.bus e.bus (still_alike he e.bus sp i) dest dest' dest out rfl
        px px' hpx hpx' tA tA').2 hc hconv'
      exact ⟨e', by rw [List.ext_getElem? fun i => (hall i).2], by rw [hamb', (hall 0).1]⟩

/-- A register read on a camera that holds still. -/
theorem still_regRead (addr : Byte) (V : Word → Word) (reg : Word) : regRead (cameraBus addr) V addr reg = (V, .ok (V reg)) := by
  unfold regRead
  simp only [cameraBus, toBe, if_true, be16_toBe]
  show (V, Except.ok (be16 (hiByte (V (reg + 0#16))) (loByte (V (reg + 0#16))))) = _
  rw [BitVec.add_zero, be16_toBe]

/-- `generate_image_to` on a camera that holds still makes the image of the subpage in the status register. -/
theorem still_imageTo {m : Mode} {n : Nat} {e : Driver F (Word → Word)} (dest : List F) :
    Driver.generateImageTo ⟨m, n, cameraBus e.addr⟩ dest e =
      Driver.generateImageSubpageTo ⟨m, n, cameraBus e.addr⟩ (statusSubpage (e.bus 0x8000#16)) dest e := by
  rw [generateImageTo_eq, still_regRead]
  rfl

/-- The four image methods against a camera that holds still. -/
theorem still_images (hs : Supported (recordedEnv env) d) (hk : Complete d.calib d.calib.cam.numPixels) (dest dest' : List F)
    (d' : Driver F (σ × List (Txn ER EW))) (V : Word → Word) (hV : AsHeard d.addr d'.bus.2 V)
    (P : Driver F (Word → Word) → Prop)
    (hstill : (∀ a w, 0x0800 ≤ a.toNat → a ≠ 0x8000#16 → lastWord d.addr a d.bus.2 = some w → V a = w) →
      ∃ e, P e ∧ SameSettings d e ∧ Supported ⟨env.mode, env.height, cameraBus d.addr⟩ e ∧ e.bus = V) :
    (∀ sp, Driver.generateRawImageSubpageTo (recordedEnv env) sp dest d = (d', dest', .ok ()) →
      ∃ e e', P e ∧ Driver.generateRawImageSubpageTo ⟨env.mode, env.height, cameraBus d.addr⟩ sp dest e = (e', dest', .ok ()) ∧
        e'.ambientTemp = d'.ambientTemp) ∧
    (∀ sp, Driver.generateImageSubpageTo (recordedEnv env) sp dest d = (d', dest', .ok ()) →
      ∃ e e', P e ∧ Driver.generateImageSubpageTo ⟨env.mode, env.height, cameraBus d.addr⟩ sp dest e = (e', dest', .ok ()) ∧
        e'.ambientTemp = d'.ambientTemp) ∧
    (Driver.generateImageTo (recordedEnv env) dest d = (d', dest', .ok ()) →
      ∃ e e', P e ∧ Driver.generateImageTo ⟨env.mode, env.height, cameraBus d.addr⟩ dest e = (e', dest', .ok ()) ∧
        e'.ambientTemp = d'.ambientTemp) ∧
    (Driver.generateImageIfReady (recordedEnv env) dest d = (d', dest', .ok true) →
      ∃ e e', P e ∧ Driver.generateImageTo ⟨env.mode, env.height, cameraBus d.addr⟩ dest e = (e', dest', .ok ()) ∧
        e'.ambientTemp = d'.ambientTemp) := by
  have hb : (recordedEnv env).bus = recorded env.bus := rfl
  -- what precedes and follows the frame says nothing about the rest
  have outside : ∀ ts, d'.bus.2 = d.bus.2 ++ ts →
      (∀ t ∈ ts, ∀ a : Word, 0x0800 ≤ a.toNat → a ≠ 0x8000#16 → t.says d.addr a = none) →
      ∀ a w, 0x0800 ≤ a.toNat → a ≠ 0x8000#16 → lastWord d.addr a d.bus.2 = some w → V a = w := by
    intro ts h1 h2 a w ha hne hw
    refine hV a w ?_
    rw [h1, lastWord_quiet fun t ht => h2 t ht a ha hne]
    exact hw
  refine ⟨fun sp hg => ?_, fun sp hg => ?_, fun hg => ?_, fun hg => ?_⟩
  · rw [rawImageSubpage_eq] at hg
    obtain ⟨rs, ts, s', px, hrs, hq, hcase⟩ := imageWith_cases env d sp dest hs
      (fun d => toRawImage env.mode d sp dest) (fun d px ram e => toRawImage_no_err _ _ _ _ _ _ _) (fun _ _ _ _ => rfl)
    have hm : (recordedEnv env).mode = env.mode := rfl
    rw [hm] at hg
    rcases hcase with ⟨e, _, h5⟩ | ⟨ram, _, h5, ⟨tA, dest1, h6, h7⟩ | ⟨_, h7⟩⟩
    · rw [hg] at h5; simp at h5
    · rw [hg] at h7
      simp only [Prod.mk.injEq, and_true] at h7
      obtain ⟨rfl, rfl⟩ := h7
      obtain ⟨e, kp, k1, k2, rfl⟩ := hstill (outside ts rfl fun t ht a ha _ => ramRead_quiet (hq t ht) ha)
      obtain ⟨e', r1, r2⟩ := (still_image hs hk k1 k2 hrs h5 d.bus.2 (fun a w _ hw => hV a w hw) dest dest' tA).1 h6
      exact ⟨e, e', kp, r1, r2⟩
    · rw [hg] at h7; simp at h7
  · rw [imageSubpage_eq] at hg
    obtain ⟨rs, ts, s', px, hrs, hq, hcase⟩ := imageWith_cases env d sp dest hs
      (fun d => toTemperatures env.mode d sp dest) (fun d px ram e => toTemperatures_no_err _ _ _ _ _ _ _) (fun _ _ _ _ => rfl)
    have hm : (recordedEnv env).mode = env.mode := rfl
    rw [hm] at hg
    rcases hcase with ⟨e, _, h5⟩ | ⟨ram, _, h5, ⟨tA, dest1, h6, h7⟩ | ⟨_, h7⟩⟩
    · rw [hg] at h5; simp at h5
    · rw [hg] at h7
      simp only [Prod.mk.injEq, and_true] at h7
      obtain ⟨rfl, rfl⟩ := h7
      obtain ⟨e, kp, k1, k2, rfl⟩ := hstill (outside ts rfl fun t ht a ha _ => ramRead_quiet (hq t ht) ha)
      obtain ⟨e', r1, r2⟩ := (still_image hs hk k1 k2 hrs h5 d.bus.2 (fun a w _ hw => hV a w hw) dest dest' tA).2 h6
      exact ⟨e, e', kp, r1, r2⟩
    · rw [hg] at h7; simp at h7
  · rw [generateImageTo_eq, hb, regRead_recorded] at hg
    generalize regRead env.bus d.bus.1 d.addr 0x8000#16 = q at hg
    obtain ⟨s1, e0 | w⟩ := q
    · simp at hg
    · simp only at hg
      rw [imageSubpage_eq] at hg
      have hs2 : Supported (recordedEnv env) { d with bus := (s1, d.bus.2 ++ [Txn.readReg d.addr 0x8000#16 (.ok w)]) } :=
        ⟨hs.1, hs.2, hs.3⟩
      obtain ⟨rs, ts, s', px, hrs, hq, hcase⟩ := imageWith_cases env
        { d with bus := (s1, d.bus.2 ++ [Txn.readReg d.addr 0x8000#16 (.ok w)]) } (statusSubpage w) dest hs2
        (fun d => toTemperatures env.mode d (statusSubpage w) dest)
        (fun d px ram e => toTemperatures_no_err _ _ _ _ _ _ _) (fun _ _ _ _ => rfl)
      have hg : imageWith (recordedEnv env) (statusSubpage w) dest
        { d with bus := (s1, d.bus.2 ++ [Txn.readReg d.addr 0x8000#16 (.ok w)]) }
        (fun d => toTemperatures env.mode d (statusSubpage w) dest) = (d', dest', .ok ()) := hg
      rcases hcase with ⟨e, _, h5⟩ | ⟨ram, _, h5, ⟨tA, dest1, h6, h7⟩ | ⟨_, h7⟩⟩
      · rw [hg] at h5; simp at h5
      · rw [hg] at h7
        simp only [Prod.mk.injEq, and_true] at h7
        obtain ⟨rfl, rfl⟩ := h7
        have hlog : ∀ x : Txn ER EW, d.bus.2 ++ [x] ++ ts = d.bus.2 ++ (x :: ts) := fun x => by simp
        obtain ⟨e, kp, k1, k2, rfl⟩ := hstill (outside _ (hlog _) fun t ht a ha hne => by
          rcases List.mem_cons.1 ht with rfl | ht
          · exact says_readReg_quiet hne _
          · exact ramRead_quiet (hq t ht) ha)
        have hstat : e.bus 0x8000#16 = w := by
          refine hV _ _ ?_
          show lastWord _ _ (_ ++ ts) = _
          rw [lastWord_quiet fun t ht => ramRead_quiet (hq t ht) (by decide)]
          exact lastWord_spoken (by rw [says_readReg, if_pos rfl])
        obtain ⟨e', r1, r2⟩ := (still_image (e := e) hs2 hk ⟨k1.1, k1.2, k1.3, k1.4, k1.5, k1.6⟩ k2 hrs h5 _ (fun a w _ hw => hV a w hw) dest dest' tA).2 h6
        refine ⟨e, e', kp, ?_, r2⟩
        rw [← k1.addr, still_imageTo, hstat, k1.addr]
        exact r1
      · rw [hg] at h7; simp at h7
  · obtain ⟨e0, _, _, h2, _⟩ | ⟨w, _, _, _, h2, _⟩ | ⟨w, ts, e0, _, _, _, _, _, h2, _⟩ |
      ⟨w, ts, _, _, _, _, _, h2, _⟩ | ⟨w, w', ts, we, _, h1, _, h3, h4, ⟨rs, px, ram, tA, hrs, h5, h6, h7, _⟩, _⟩ :=
      ifReady_cases env d dest hs _ hg
    · simp at h2
    · simp at h2
    · simp at h2
    · simp at h2
    · simp only at h1 h6 h7
      obtain ⟨e, kp, k1, k2, rfl⟩ := hstill (outside _ h1 fun t ht a ha hne => by
        simp only [List.cons_append, List.mem_cons, List.mem_append, List.not_mem_nil, or_false] at ht
        rcases ht with rfl | ht | rfl
        · exact says_readReg_quiet hne _
        · exact ramRead_quiet (h3 t ht) ha
        · exact says_writeReg_quiet hne _ _)
      have hlog : d.bus.2 ++ (.readReg d.addr 0x8000#16 (.ok w) :: ts ++ [.writeReg d.addr 0x8000#16 w' we]) =
          d.bus.2 ++ [.readReg d.addr 0x8000#16 (.ok w)] ++ ts ++ [.writeReg d.addr 0x8000#16 w' we] := by simp
      have hstat : e.bus 0x8000#16 = w' := by
        refine hV _ _ ?_
        rw [h1, hlog]
        exact lastWord_spoken (by rw [says_writeReg, if_pos rfl])
      have hsub : statusSubpage w' = statusSubpage w := by
        unfold statusSubpage
        rw [h4 0, if_neg (show ¬ (0 : Nat) = 3 by decide)]
      suffices hx : _ from by
        obtain ⟨e', r1, r2⟩ := (still_image (e := e) hs hk k1 k2 hrs h5 (d.bus.2 ++ [.readReg d.addr 0x8000#16 (.ok w)]) hx dest dest' tA).2 h6
        refine ⟨e, e', kp, ?_, by rw [h7]; exact r2⟩
        rw [← k1.addr, still_imageTo, hstat, hsub, k1.addr]
        exact r1
      intro a x ha hw
      refine hV a x ?_
      rw [h1, hlog, lastWord_quiet (ts := [_])]
      · exact hw
      · intro t ht
        rw [List.mem_singleton] at ht
        subst ht
        refine says_writeReg_quiet ?_ _ _
        intro hc
        rw [hc] at ha
        revert ha
        decide

end

/-- What is known after construction. -/
theorem new_heard {C : Type} {fromData : List Byte → Res LibErr C} {toCalib : C → Calib F} {b : Bus σ ER EW} {n : Nat}
    {s s' : σ × List (Txn ER EW)} {addr : Byte} {d : Driver F (σ × List (Txn ER EW))}
    (hd : Driver.new fromData toCalib (recorded b) n s addr = (s', .ok d)) :
    ∃ bytes c w, fromData bytes = .ok c ∧ d.calib = toCalib c ∧ lastWord addr 0x800D#16 d.bus.2 = some w ∧ Caches d w ∧
      ∀ V : Word → Word, (∀ a x, 0x2400 ≤ a.toNat → a.toNat < 0x2740 → lastWord addr a d.bus.2 = some x → V a = x) →
        memBytes V 0x2400#16 1664 = bytes := by
  obtain ⟨s1, eeprom, ts, outcome, h1, h2⟩ := C39_construction fromData toCalib b n s addr
  rw [hd] at h1
  simp only [Prod.mk.injEq] at h1
  obtain ⟨_, rfl⟩ := h1
  cases eeprom with
  | error e => simp at h2
  | ok bytes =>
    simp only at h2
    obtain ⟨hl, h2⟩ := h2
    cases hc : fromData bytes with
    | err e => rw [hc] at h2; simp at h2
    | panic => rw [hc] at h2; simp at h2
    | ok c =>
      rw [hc] at h2
      obtain ⟨control, h3, h4⟩ := h2
      cases control with
      | error e => simp at h4
      | ok w =>
        obtain ⟨d0, h5, h6, h7, h8, _, h9, _⟩ := h4
        cases h5
        have hlog : d.bus.2 = s.2 ++ [.read addr (toBe 0x2400#16) 1664 (.ok bytes)] ++ [.readReg addr 0x800D#16 (.ok w)] := by
          rw [h6, h3]
          show s.2 ++ [_, _] = _
          rw [List.append_assoc]
          rfl
        refine ⟨bytes, c, w, hc, h8, ?_, h9, fun V hV => ?_⟩
        · rw [hlog]
          exact lastWord_spoken (by rw [says_readReg, if_pos rfl])
        · have word : ∀ k, k < 832 → ∃ x y, bytes[2 * k]? = some x ∧ bytes[2 * k + 1]? = some y ∧
              V (0x2400#16 + BitVec.ofNat 16 k) = be16 x y := by
            intro k hk
            have hk16 : (BitVec.ofNat 16 k).toNat = k := by
              rw [BitVec.toNat_ofNat, Nat.mod_eq_of_lt (by omega)]
            have hsum : (0x2400#16 + BitVec.ofNat 16 k).toNat = 0x2400 + k := by
              rw [BitVec.toNat_add, hk16]
              show (9216 + k) % 65536 = 9216 + k
              omega
            refine ⟨bytes[2 * k]'(by omega), bytes[2 * k + 1]'(by omega), List.getElem?_eq_getElem _,
              List.getElem?_eq_getElem _, ?_⟩
            refine hV _ _ (by omega) (by omega) ?_
            rw [hlog, lastWord_quiet (ts := [_]), lastWord_spoken]
            · have hsub : (0x2400#16 + BitVec.ofNat 16 k - 0x2400#16).toNat = k := by
                rw [BitVec.toNat_sub, hsum]
                show (65536 - 9216 + (9216 + k)) % 65536 = k
                omega
              rw [says_read, hsub, if_pos (by omega), List.getElem?_eq_getElem, List.getElem?_eq_getElem]
            · intro t ht
              rw [List.mem_singleton] at ht
              subst ht
              refine says_readReg_quiet ?_ _
              intro hc
              rw [hc] at hsum
              have : (0x800D#16).toNat = 32781 := rfl
              omega
          apply List.ext_getElem?
          intro i
          by_cases hi : i < 1664
          · obtain ⟨x, y, hx, hy, hw⟩ := word (i / 2) (by omega)
            rw [memBytes_get V 0x2400#16 1664 i hi, hw]
            by_cases hp : i % 2 = 0
            · rw [if_pos hp, hiByte_be16, ← hx]
              congr 1
              omega
            · rw [if_neg hp, loByte_be16, ← hy]
              congr 1
              omega
          · rw [List.getElem?_eq_none (by simp [memBytes]; omega), List.getElem?_eq_none (by omega)]

/-- A driver for a camera that holds still, with the settings of one that has been used on any bus. -/
theorem still_driver {C : Type} {fromData : List Byte → Res LibErr C} {toCalib : C → Calib F} {m : Mode} {height n : Nat}
    {b : Bus σ ER EW} {s s' : σ × List (Txn ER EW)} {addr : Byte} {d : Driver F (σ × List (Txn ER EW))}
    (hd : Driver.new fromData toCalib (recorded b) n s addr = (s', .ok d))
    (hs : Supported (recordedEnv ⟨m, height, b⟩) d) (ha : d.addr = addr)
    (hnew : ∀ (V c : Word → Word) (e : Driver F (Word → Word)), Driver.new fromData toCalib (cameraBus addr) n V addr = (c, .ok e) →
      Supported ⟨m, height, cameraBus addr⟩ e ∧ e.addr = addr ∧ Caches e (e.bus 0x800D#16))
    (ops : List (Op F)) (V : Word → Word) (d1 : Driver F (σ × List (Txn ER EW)))
    (h1 : d1 = runOps (recordedEnv ⟨m, height, b⟩) ops d)
    (hV : ∀ a w, 0x0800 ≤ a.toNat → a ≠ 0x8000#16 → lastWord d1.addr a d1.bus.2 = some w → V a = w) :
    ∃ e : Driver F (Word → Word), (∃ c e0, Driver.new fromData toCalib (cameraBus addr) n V addr = (c, .ok e0) ∧
        e = runOps ⟨m, height, cameraBus addr⟩ [.overrideEmissivity d1.effectiveEmissivity,
          .setReflectedTemperature d1.reflectedTemperature] e0) ∧
      SameSettings d1 e ∧ Supported ⟨m, height, cameraBus d1.addr⟩ e ∧ e.bus = V := by
  obtain ⟨bytes, c, w, hf, hcal, hw, hc, hee⟩ := new_heard hd
  obtain ⟨hs1, ha1, hcal1⟩ := runOps_supported hs ops
  obtain ⟨k1, k2⟩ := history_heard hs ops
  rw [← h1] at hs1 ha1 hcal1 k1 k2
  rw [ha] at k1 k2
  rw [ha1, ha] at hV
  obtain ⟨w1, hw1, hc1⟩ := k1 w hw hc
  have hVc : V 0x800D#16 = w1 := hV _ _ (by decide) (by decide) hw1
  have hbytes : memBytes V 0x2400#16 1664 = bytes := by
    refine hee V fun a x h2 h3 hx => ?_
    have hne : ∀ r : Word, 0x2740 ≤ r.toNat → a ≠ r := fun r hr hc => by rw [hc] at h3; omega
    refine hV a x (by omega) (hne _ (by decide)) ?_
    rw [k2 a (by omega) (hne _ (by decide)) (hne _ (by decide))]
    exact hx
  obtain ⟨c0, e0, he0⟩ := (new_served fromData toCalib n V (cameraBus_static addr) (cameraBus_serves Mlx90640.cam addr)).2
    ⟨c, by show fromData (memBytes V 0x2400#16 1664) = _; rw [hbytes]; exact hf⟩
  obtain ⟨q1, q2, q3⟩ := hnew V c0 e0 he0
  obtain ⟨p1, c', p2, p3⟩ := new_static (cameraBus_static addr) he0
  have p1 : e0.bus = V := p1
  have p2 : fromData (memBytes V 0x2400#16 1664) = .ok c' := p2
  rw [hbytes, hf] at p2
  cases p2
  have hcal2 : e0.calib = d1.calib := by rw [p3, hcal1, hcal]
  refine ⟨_, ⟨c0, e0, he0, rfl⟩, ⟨?_, hcal2, rfl, rfl, ?_, ?_⟩, ?_, p1⟩
  · show e0.addr = _
    rw [q2, ha1, ha]
  · show e0.accessPattern = _
    rw [q3.1, hc1.1, p1, hVc]
  · show e0.resCorr = _
    rw [q3.2, hc1.2, p1, hVc, hcal2]
  · rw [ha1, ha]
    exact ⟨q1.1, q1.2, q1.3⟩

/-- **C99 (the log has a memory).** There is always a memory as heard. -/
theorem C99_memory_exists (addr : Byte) (log : List (Txn ER EW)) : ∃ V, AsHeard addr log V :=
  ⟨fun a => (lastWord addr a log).getD 0#16, fun a w h => by show (lastWord addr a log).getD 0#16 = w; rw [h]; rfl⟩

/-- **C99 (MLX90640).** On any bus - whatever is connected to it, however it changes, whatever fails - and after any history
of calls: a successful image is, element for element and with the same ambient temperature, the image that a driver freshly
constructed for a camera that holds still would have made, with the same emissivity and reflected temperature. The
memory of that camera is what was last heard: for each address the last word received from it or sent to it. (So when
`generate_image_if_ready` succeeds, the new-data flag is no longer in it.) -/
theorem C99_replay_640 (m : Mode) (b : Bus σ ER EW) (s s' : σ × List (Txn ER EW)) (addr : Byte)
    (d : Driver F (σ × List (Txn ER EW))) (hd : Driver.new640 m (recorded b) s addr = (s', .ok d)) (ops : List (Op F))
    (dest dest' : List F) (d' : Driver F (σ × List (Txn ER EW))) (V : Word → Word) (hV : AsHeard addr d'.bus.2 V) :
    let env := recordedEnv ⟨m, 24, b⟩
    let still : Env (Word → Word) Unit Unit := ⟨m, 24, cameraBus addr⟩
    let d1 := runOps env ops d
    let same := fun image : Driver F (Word → Word) → Driver.ImageResult F (Word → Word) Unit Unit Unit =>
      ∃ e e', OnStill Driver.new640 m 24 addr V d1.effectiveEmissivity d1.reflectedTemperature e ∧
        image e = (e', dest', .ok ()) ∧ e'.ambientTemp = d'.ambientTemp
    (∀ sp, Driver.generateRawImageSubpageTo env sp dest d1 = (d', dest', .ok ()) →
      same (Driver.generateRawImageSubpageTo still sp dest)) ∧
    (∀ sp, Driver.generateImageSubpageTo env sp dest d1 = (d', dest', .ok ()) →
      same (Driver.generateImageSubpageTo still sp dest)) ∧
    (Driver.generateImageTo env dest d1 = (d', dest', .ok ()) → same (Driver.generateImageTo still dest)) ∧
    (Driver.generateImageIfReady env dest d1 = (d', dest', .ok true) → same (Driver.generateImageTo still dest)) := by
  intro env still d1 same
  obtain ⟨hs, ha⟩ := (C39_constructed_drivers_supported m (recorded b) s addr).1 s' d hd
  have hk := constructed_complete (Or.inl hd)
  obtain ⟨hs1, ha1, hcal1⟩ := runOps_supported (env := env) hs ops
  have hcal1 : d1.calib = d.calib := hcal1
  have hk1 : Complete d1.calib d1.calib.cam.numPixels := by rw [hcal1]; exact hk
  have ha2 : d1.addr = addr := ha1.trans ha
  have main := still_images (env := ⟨m, 24, b⟩) (d := d1) hs1 hk1 dest dest' d' V (by rw [ha2]; exact hV)
    (OnStill Driver.new640 m 24 addr V d1.effectiveEmissivity d1.reflectedTemperature) fun hout =>
      still_driver (m := m) (height := 24) hd hs ha (fun V c e he =>
        ⟨((C39_constructed_drivers_supported m (cameraBus addr) V addr).1 c e he).1,
          ((C39_constructed_drivers_supported m (cameraBus addr) V addr).1 c e he).2,
          C47_after_construction m (cameraBus addr) V c addr e (cameraBus_static addr) (Or.inl he)⟩) ops V d1 rfl hout
  rw [ha2] at main
  exact main

/-- **C99 (MLX90641).** The same for the MLX90641. -/
theorem C99_replay_641 (m : Mode) (b : Bus σ ER EW) (s s' : σ × List (Txn ER EW)) (addr : Byte)
    (d : Driver F (σ × List (Txn ER EW))) (hd : Driver.new641 m (recorded b) s addr = (s', .ok d)) (ops : List (Op F))
    (dest dest' : List F) (d' : Driver F (σ × List (Txn ER EW))) (V : Word → Word) (hV : AsHeard addr d'.bus.2 V) :
    let env := recordedEnv ⟨m, 12, b⟩
    let still : Env (Word → Word) Unit Unit := ⟨m, 12, cameraBus addr⟩
    let d1 := runOps env ops d
    let same := fun image : Driver F (Word → Word) → Driver.ImageResult F (Word → Word) Unit Unit Unit =>
      ∃ e e', OnStill Driver.new641 m 12 addr V d1.effectiveEmissivity d1.reflectedTemperature e ∧
        image e = (e', dest', .ok ()) ∧ e'.ambientTemp = d'.ambientTemp
    (∀ sp, Driver.generateRawImageSubpageTo env sp dest d1 = (d', dest', .ok ()) →
      same (Driver.generateRawImageSubpageTo still sp dest)) ∧
    (∀ sp, Driver.generateImageSubpageTo env sp dest d1 = (d', dest', .ok ()) →
      same (Driver.generateImageSubpageTo still sp dest)) ∧
    (Driver.generateImageTo env dest d1 = (d', dest', .ok ()) → same (Driver.generateImageTo still dest)) ∧
    (Driver.generateImageIfReady env dest d1 = (d', dest', .ok true) → same (Driver.generateImageTo still dest)) := by
  intro env still d1 same
  obtain ⟨hs, ha⟩ := (C39_constructed_drivers_supported m (recorded b) s addr).2 s' d hd
  have hk := constructed_complete (Or.inr hd)
  obtain ⟨hs1, ha1, hcal1⟩ := runOps_supported (env := env) hs ops
  have hcal1 : d1.calib = d.calib := hcal1
  have hk1 : Complete d1.calib d1.calib.cam.numPixels := by rw [hcal1]; exact hk
  have ha2 : d1.addr = addr := ha1.trans ha
  have main := still_images (env := ⟨m, 12, b⟩) (d := d1) hs1 hk1 dest dest' d' V (by rw [ha2]; exact hV)
    (OnStill Driver.new641 m 12 addr V d1.effectiveEmissivity d1.reflectedTemperature) fun hout =>
      still_driver (m := m) (height := 12) hd hs ha (fun V c e he =>
        ⟨((C39_constructed_drivers_supported m (cameraBus addr) V addr).2 c e he).1,
          ((C39_constructed_drivers_supported m (cameraBus addr) V addr).2 c e he).2,
          C47_after_construction m (cameraBus addr) V c addr e (cameraBus_static addr) (Or.inr he)⟩) ops V d1 rfl hout
  rw [ha2] at main
  exact main

/-- What a driver for a camera that holds still sees. -/
theorem still_camera_640 {m : Mode} {addr : Byte} {V : Word → Word} {em : ℝ} {refl : Option ℝ} {e : Driver ℝ (Word → Word)}
    (he : OnStill Driver.new640 m 24 addr V em refl e) (hreg : Ee640.Regular (eepromOf V))
    (hv : Fits16 ((V 0x072A#16).toInt - (Ee640.calibration (eepromOf V)).vdd25)) (dest dest' : List ℝ) (e' : Driver ℝ (Word → Word)) :
    let still : Env (Word → Word) Unit Unit := ⟨m, 24, cameraBus addr⟩
    let settled := fun sp => e'.ambientTemp = some (Datasheet.ambient (Ee640.calibration (eepromOf V)) (Mlx90640Memory.readings V sp))
    let thermal := fun sp => Drawn (Mlx90640Memory.measured V sp) (Mlx90640Memory.temperature V em refl sp) dest dest'
    (∀ sp, Driver.generateRawImageSubpageTo still sp dest e = (e', dest', .ok ()) → settled sp ∧
      Drawn (Mlx90640Memory.measured V sp) (Mlx90640Memory.signal V em sp) dest dest') ∧
    (∀ sp, Driver.generateImageSubpageTo still sp dest e = (e', dest', .ok ()) → settled sp ∧ thermal sp) ∧
    (Driver.generateImageTo still dest e = (e', dest', .ok ()) →
      settled (statusSubpage (V 0x8000#16)) ∧ thermal (statusSubpage (V 0x8000#16))) := by
  obtain ⟨c, e0, h0, rfl⟩ := he
  have hb : e0.bus = V := (new_static (cameraBus_static addr) h0).1
  have main := (C66_camera_640 m (cameraBus addr) V c addr (cameraBus_static addr) e0 h0 hreg _ _
    (.call (.setReflectedTemperature refl) (.call (.overrideEmissivity em) .start)) (by
      intro x hx hc
      simp only [List.nil_append, List.cons_append, List.mem_cons, List.not_mem_nil, or_false] at hx
      rcases hx with rfl | rfl <;> exact nomatch hc.1) dest dest' e').2
  simp only [id] at main
  have hb2 : ((Op.setReflectedTemperature refl).exec (⟨m, 24, cameraBus addr⟩ : Env (Word → Word) Unit Unit)
      ((Op.overrideEmissivity em).exec ⟨m, 24, cameraBus addr⟩ e0).1).1.bus = V := hb
  rw [hb2] at main
  exact ⟨(main hv).1, (main hv).2.1, (main hv).2.2.1⟩

theorem still_camera_641 {m : Mode} {addr : Byte} {V : Word → Word} {em : ℝ} {refl : Option ℝ} {e : Driver ℝ (Word → Word)}
    (he : OnStill Driver.new641 m 12 addr V em refl e) {D : Nat → BitVec 11} (hreg : Ee641.Regular D)
    (hD : ∀ a ∈ Ee641.readAddresses 192, WithinOneBit (eepromOf V a) (codeword (D a)))
    (hv : Fits16 ((V 0x05AA#16).toInt - (Ee641.calibration D).vdd25)) (dest dest' : List ℝ) (e' : Driver ℝ (Word → Word)) :
    let still : Env (Word → Word) Unit Unit := ⟨m, 12, cameraBus addr⟩
    let settled := fun sp => e'.ambientTemp = some (Datasheet.ambient (Ee641.calibration D) (Mlx90641Memory.readings V sp))
    let thermal := fun sp => Drawn (fun i => i < 192) (Mlx90641Memory.temperature V D em refl sp) dest dest'
    (∀ sp, Driver.generateRawImageSubpageTo still sp dest e = (e', dest', .ok ()) → settled sp ∧
      Drawn (fun i => i < 192) (Mlx90641Memory.signal V D em sp) dest dest') ∧
    (∀ sp, Driver.generateImageSubpageTo still sp dest e = (e', dest', .ok ()) → settled sp ∧ thermal sp) ∧
    (Driver.generateImageTo still dest e = (e', dest', .ok ()) →
      settled (statusSubpage (V 0x8000#16)) ∧ thermal (statusSubpage (V 0x8000#16))) := by
  obtain ⟨c, e0, h0, rfl⟩ := he
  have hb : e0.bus = V := (new_static (cameraBus_static addr) h0).1
  have main := (C66_camera_641 m (cameraBus addr) V c addr (cameraBus_static addr) e0 h0 D hreg hD _ _
    (.call (.setReflectedTemperature refl) (.call (.overrideEmissivity em) .start)) (by
      intro x hx hc
      simp only [List.nil_append, List.cons_append, List.mem_cons, List.not_mem_nil, or_false] at hx
      rcases hx with rfl | rfl <;> exact nomatch hc.1) dest dest' e').2
  simp only [id] at main
  have hb2 : ((Op.setReflectedTemperature refl).exec (⟨m, 12, cameraBus addr⟩ : Env (Word → Word) Unit Unit)
      ((Op.overrideEmissivity em).exec ⟨m, 12, cameraBus addr⟩ e0).1).1.bus = V := hb
  rw [hb2] at main
  exact ⟨(main hv).1, (main hv).2.1, (main hv).2.2.1⟩

/-- **C99 (the formulas, MLX90640).** In exact arithmetic, on any bus and after any history: every measured pixel of a successful
image is the documented function of the words last heard and the user's settings; the other elements are untouched. -/
theorem C99_camera_640 (m : Mode) (b : Bus σ ER EW) (s s' : σ × List (Txn ER EW)) (addr : Byte)
    (d : Driver ℝ (σ × List (Txn ER EW))) (hd : Driver.new640 m (recorded b) s addr = (s', .ok d)) (ops : List (Op ℝ))
    (dest dest' : List ℝ) (d' : Driver ℝ (σ × List (Txn ER EW))) (V : Word → Word) (hV : AsHeard addr d'.bus.2 V)
    (hreg : Ee640.Regular (eepromOf V)) (hv : Fits16 ((V 0x072A#16).toInt - (Ee640.calibration (eepromOf V)).vdd25)) :
    let env := recordedEnv ⟨m, 24, b⟩
    let d1 := runOps env ops d
    let settled := fun sp => d'.ambientTemp = some (Datasheet.ambient (Ee640.calibration (eepromOf V)) (Mlx90640Memory.readings V sp))
    let thermal := fun sp => Drawn (Mlx90640Memory.measured V sp)
      (Mlx90640Memory.temperature V d1.effectiveEmissivity d1.reflectedTemperature sp) dest dest'
    (∀ sp, Driver.generateRawImageSubpageTo env sp dest d1 = (d', dest', .ok ()) → settled sp ∧
      Drawn (Mlx90640Memory.measured V sp) (Mlx90640Memory.signal V d1.effectiveEmissivity sp) dest dest') ∧
    (∀ sp, Driver.generateImageSubpageTo env sp dest d1 = (d', dest', .ok ()) → settled sp ∧ thermal sp) ∧
    (Driver.generateImageTo env dest d1 = (d', dest', .ok ()) →
      settled (statusSubpage (V 0x8000#16)) ∧ thermal (statusSubpage (V 0x8000#16))) ∧
    (Driver.generateImageIfReady env dest d1 = (d', dest', .ok true) →
      settled (statusSubpage (V 0x8000#16)) ∧ thermal (statusSubpage (V 0x8000#16))) := by
  obtain ⟨h1, h2, h3, h4⟩ := C99_replay_640 m b s s' addr d hd ops dest dest' d' V hV
  refine ⟨fun sp hg => ?_, fun sp hg => ?_, fun hg => ?_, fun hg => ?_⟩
  · obtain ⟨e, e', he, hi, ht⟩ := h1 sp hg
    have := (still_camera_640 he hreg hv dest dest' e').1 sp hi
    rw [ht] at this
    exact this
  · obtain ⟨e, e', he, hi, ht⟩ := h2 sp hg
    have := (still_camera_640 he hreg hv dest dest' e').2.1 sp hi
    rw [ht] at this
    exact this
  · obtain ⟨e, e', he, hi, ht⟩ := h3 hg
    have := (still_camera_640 he hreg hv dest dest' e').2.2 hi
    rw [ht] at this
    exact this
  · obtain ⟨e, e', he, hi, ht⟩ := h4 hg
    have := (still_camera_640 he hreg hv dest dest' e').2.2 hi
    rw [ht] at this
    exact this

/-- **C99 (the formulas, MLX90641).** The same for the MLX90641. -/
theorem C99_camera_641 (m : Mode) (b : Bus σ ER EW) (s s' : σ × List (Txn ER EW)) (addr : Byte)
    (d : Driver ℝ (σ × List (Txn ER EW))) (hd : Driver.new641 m (recorded b) s addr = (s', .ok d)) (ops : List (Op ℝ))
    (dest dest' : List ℝ) (d' : Driver ℝ (σ × List (Txn ER EW))) (V : Word → Word) (hV : AsHeard addr d'.bus.2 V)
    (D : Nat → BitVec 11) (hreg : Ee641.Regular D)
    (hD : ∀ a ∈ Ee641.readAddresses 192, WithinOneBit (eepromOf V a) (codeword (D a)))
    (hv : Fits16 ((V 0x05AA#16).toInt - (Ee641.calibration D).vdd25)) :
    let env := recordedEnv ⟨m, 12, b⟩
    let d1 := runOps env ops d
    let settled := fun sp => d'.ambientTemp = some (Datasheet.ambient (Ee641.calibration D) (Mlx90641Memory.readings V sp))
    let thermal := fun sp => Drawn (fun i => i < 192)
      (Mlx90641Memory.temperature V D d1.effectiveEmissivity d1.reflectedTemperature sp) dest dest'
    (∀ sp, Driver.generateRawImageSubpageTo env sp dest d1 = (d', dest', .ok ()) → settled sp ∧
      Drawn (fun i => i < 192) (Mlx90641Memory.signal V D d1.effectiveEmissivity sp) dest dest') ∧
    (∀ sp, Driver.generateImageSubpageTo env sp dest d1 = (d', dest', .ok ()) → settled sp ∧ thermal sp) ∧
    (Driver.generateImageTo env dest d1 = (d', dest', .ok ()) →
      settled (statusSubpage (V 0x8000#16)) ∧ thermal (statusSubpage (V 0x8000#16))) ∧
    (Driver.generateImageIfReady env dest d1 = (d', dest', .ok true) →
      settled (statusSubpage (V 0x8000#16)) ∧ thermal (statusSubpage (V 0x8000#16))) := by
  obtain ⟨h1, h2, h3, h4⟩ := C99_replay_641 m b s s' addr d hd ops dest dest' d' V hV
  refine ⟨fun sp hg => ?_, fun sp hg => ?_, fun hg => ?_, fun hg => ?_⟩
  · obtain ⟨e, e', he, hi, ht⟩ := h1 sp hg
    have := (still_camera_641 he hreg hD hv dest dest' e').1 sp hi
    rw [ht] at this
    exact this
  · obtain ⟨e, e', he, hi, ht⟩ := h2 sp hg
    have := (still_camera_641 he hreg hD hv dest dest' e').2.1 sp hi
    rw [ht] at this
    exact this
  · obtain ⟨e, e', he, hi, ht⟩ := h3 hg
    have := (still_camera_641 he hreg hD hv dest dest' e').2.2 hi
    rw [ht] at this
    exact this
  · obtain ⟨e, e', he, hi, ht⟩ := h4 hg
    have := (still_camera_641 he hreg hD hv dest dest' e').2.2 hi
    rw [ht] at this
    exact this

/-- Reads from a camera with a static memory say what the memory is. -/
theorem static_read_heard {b : Bus σ ER EW} {addr : Byte} {mem : σ → Word → Word} (h : StaticMemory b addr mem)
    (s : σ × List (Txn ER EW)) (base : Word) (buf : List Byte) (hi : AsHeard addr s.2 (mem s.1)) :
    AsHeard addr ((recorded b).writeRead s addr (toBe base) buf).1.2 (mem ((recorded b).writeRead s addr (toBe base) buf).1.1) := by
  intro a w hw
  have hmem : mem ((recorded b).writeRead s addr (toBe base) buf).1.1 = mem s.1 := h.read_mem s.1 base buf
  rw [hmem]
  have hw : lastWord addr a (s.2 ++ [_]) = some w := hw
  rw [lastWord_snoc] at hw
  have hd := h.read_data s.1 base buf
  generalize b.writeRead s.1 addr (toBe base) buf = q at hw hd
  obtain ⟨s1, bytes, _ | e⟩ := q
  · have hb : bytes = memBytes (mem s.1) base buf.length := hd rfl
    subst hb
    simp only at hw
    rw [says_read] at hw
    have hk : BitVec.ofNat 16 (a - base).toNat = a - base := by rw [BitVec.ofNat_toNat, BitVec.setWidth_eq]
    have hsum : base + (a - base) = a := by rw [BitVec.add_comm, BitVec.sub_add_cancel]
    split at hw
    · rename_i hlt
      rw [memBytes_get _ _ _ _ (by omega), memBytes_get _ _ _ _ hlt] at hw
      rw [if_pos (show 2 * (a - base).toNat % 2 = 0 by omega), if_neg (show ¬ (2 * (a - base).toNat + 1) % 2 = 0 by omega),
        show 2 * (a - base).toNat / 2 = (a - base).toNat by omega, show (2 * (a - base).toNat + 1) / 2 = (a - base).toNat by omega,
        hk, hsum] at hw
      simp only [be16_toBe, Option.some_or, Option.some.injEq] at hw
      exact hw
    · exact hi a w hw
  · exact hi a w hw

/-- **C99 (the memory of a healthy camera).** A camera with a static memory, on a bus that serves the documented accesses:
what has been heard of it is its memory - after construction, and after any calls. -/
theorem C99_healthy_camera (m : Mode) (b : Bus σ ER EW) (s s' : σ × List (Txn ER EW)) (addr : Byte)
    (d : Driver F (σ × List (Txn ER EW))) (n : Nat) (mem : σ → Word → Word)
    (hd : (n = 24 ∧ Driver.new640 m (recorded b) s addr = (s', .ok d)) ∨ (n = 12 ∧ Driver.new641 m (recorded b) s addr = (s', .ok d)))
    (h : StaticMemory b addr mem) (hv : Serves b d.calib.cam addr mem) (hstart : AsHeard addr s.2 (mem s.1)) (ops : List (Op F)) :
    let d1 := runOps (recordedEnv ⟨m, n, b⟩) ops d
    AsHeard addr d1.bus.2 (mem d1.bus.1) := by
  intro d1
  obtain ⟨hs, ha⟩ : Supported (recordedEnv (⟨m, n, b⟩ : Env σ ER EW)) d ∧ d.addr = addr := by
    rcases hd with ⟨rfl, hd⟩ | ⟨rfl, hd⟩
    · exact (C39_constructed_drivers_supported m (recorded b) s addr).1 s' d hd
    · exact (C39_constructed_drivers_supported m (recorded b) s addr).2 s' d hd
  have hnew : AsHeard addr d.bus.2 (mem d.bus.1) := by
    suffices key : ∀ {C : Type} (fromData : List Byte → Res LibErr C) (toCalib : C → Calib F) (k : Nat),
        Driver.new fromData toCalib (recorded b) k s addr = (s', .ok d) → AsHeard addr d.bus.2 (mem d.bus.1) by
      rcases hd with ⟨_, hd⟩ | ⟨_, hd⟩
      · exact key _ _ _ hd
      · exact key _ _ _ hd
    intro C fromData toCalib k hd
    unfold Driver.new calibFromI2c Bus.read at hd
    have h1 := static_read_heard h s 0x2400#16 (List.replicate ((0x273F - 0x2400 + 1) * 2) 0#8) hstart
    generalize (recorded b).writeRead s addr (toBe 0x2400#16) (List.replicate ((0x273F - 0x2400 + 1) * 2) 0#8) = q at h1 hd
    obtain ⟨s1, bytes, _ | e⟩ := q
    · simp only at hd h1
      cases hf : fromData bytes with
      | panic => rw [hf] at hd; simp [Res.mapErr] at hd
      | err e => rw [hf] at hd; simp [Res.mapErr] at hd
      | ok c =>
        rw [hf] at hd
        simp only [Res.mapErr] at hd
        unfold Driver.newWithCalibration at hd
        rw [readControl_eq] at hd
        have h2 : AsHeard addr (regRead (recorded b) s1 addr 0x800D#16).1.2 (mem (regRead (recorded b) s1 addr 0x800D#16).1.1) :=
          static_read_heard h s1 0x800D#16 [0#8, 0#8] h1
        generalize regRead (recorded b) s1 addr 0x800D#16 = q at h2 hd
        obtain ⟨s2, e | w⟩ := q
        · simp at hd
        · simp only [resolution_val, accessPattern_val, Res.ok_bind] at hd
          simp only [Prod.mk.injEq] at hd
          obtain ⟨_, hd⟩ := hd
          cases hd
          exact h2
    · simp at hd
  have hsv : SurvivesEdits (recorded b) d.calib.cam addr (fun s => AsHeard addr s.2 (mem s.1)) (fun r w s => mem s.1 r = w) := by
    refine ⟨fun s base buf _ hi => static_read_heard h s base buf hi, ?_, ?_, ?_⟩
    · intro r w s base buf _ hm
      show mem (b.writeRead s.1 addr (toBe base) buf).1 r = _
      rw [h.read_mem]; exact hm
    · intro s r w _ _ hw
      obtain ⟨h1, h2⟩ := static_regRead (static_recorded h) s r
      rw [h2 w hw]
      exact congrFun h1 r
    · intro s r w0 w hw hm hb hi a x hx
      subst hm
      have hok := hv.write s.1 r w hw hb
      have hmem : mem ((recorded b).write s addr (toBe r ++ toBe w)).1.1 = setWord (mem s.1) r w := h.write_ok _ _ _ hok
      rw [hmem]
      have hx : lastWord addr a (s.2 ++ [.writeReg addr r w (b.write s.1 addr (toBe r ++ toBe w)).2]) = some x := hx
      rw [lastWord_snoc, says_writeReg] at hx
      unfold setWord
      by_cases hra : r = a
      · rw [if_pos hra, Option.some_or] at hx
        rw [if_pos hra.symm]
        exact Option.some.inj hx
      · rw [if_neg hra, Option.none_or] at hx
        rw [if_neg fun hc => hra hc.symm]
        exact hi a x hx
  have hsv : SurvivesEdits (recordedEnv (⟨m, n, b⟩ : Env σ ER EW)).bus d.calib.cam d.addr (fun s => AsHeard addr s.2 (mem s.1))
      (fun r w s => mem s.1 r = w) := by rw [ha]; exact hsv
  have step : ∀ (ops : List (Op F)) (d0 : Driver F (σ × List (Txn ER EW))), Supported (recordedEnv (⟨m, n, b⟩ : Env σ ER EW)) d0 →
      d0.addr = d.addr → d0.calib = d.calib → AsHeard addr d0.bus.2 (mem d0.bus.1) →
      AsHeard addr (runOps (recordedEnv ⟨m, n, b⟩) ops d0).bus.2 (mem (runOps (recordedEnv ⟨m, n, b⟩) ops d0).bus.1) := by
    intro ops
    induction ops with
    | nil => exact fun _ _ _ _ hi => hi
    | cons op ops ih =>
      intro d0 h1 h2 h3 h4
      obtain ⟨k1, k2, k3⟩ := exec_supported h1 op
      exact ih _ k1 (k2.trans h2) (k3.trans h3) (exec_edits h1 (by rw [h2, h3]; exact hsv) op h4)
  exact step ops d hs rfl rfl hnew

/-- A healthy camera with the memory `M`, after any history of calls. -/
theorem heard_healthy {m : Mode} {M t' : Word → Word} {addr : Byte} {e : Driver ℝ (Word → Word)}
    (he : Driver.new640 m (cameraBus addr) M addr = (t', .ok e)) (hreg : Ee640.Regular (eepromOf M))
    (hcal : e.calib = Ee640.calibration (eepromOf M))
    (hfit : Fits16 ((M 0x072A#16).toInt - (Ee640.calibration (eepromOf M)).vdd25)) (ops : List (Op ℝ)) (sp : Subpage) (dest : List ℝ) :
    ∃ s' d d' dest', Driver.new640 m (recorded (cameraBus addr)) (M, []) addr = (s', .ok d) ∧
      Driver.generateImageSubpageTo (recordedEnv ⟨m, 24, cameraBus addr⟩) sp dest
        (runOps (recordedEnv ⟨m, 24, cameraBus addr⟩) ops d) = (d', dest', .ok ()) ∧
      AsHeard addr d'.bus.2 d'.bus.1 ∧ Ee640.Regular (eepromOf d'.bus.1) ∧
      Fits16 ((d'.bus.1 0x072A#16).toInt - (Ee640.calibration (eepromOf d'.bus.1)).vdd25) := by
  have hst := cameraBus_static addr
  have hst2 : StaticMemory (recorded (cameraBus addr)) addr Prod.fst := static_recorded hst
  have hv := fun cam => cameraBus_serves cam addr
  have hv2 : ∀ cam, Serves (recorded (cameraBus addr)) cam addr Prod.fst := fun cam =>
    ⟨fun s => (hv cam).read s.1, fun s => (hv cam).write s.1, fun s => (hv cam).eeprom s.1⟩
  obtain ⟨_, c, hc, hcal1⟩ := new_static hst he
  unfold id at hc
  obtain ⟨s', d, hd⟩ := (new_served (mem := Prod.fst) (Mlx90640.fromData m) Mlx90640.Calibration.toCalib (Mlx90640.numPixels * 2)
    (M, []) hst2 (hv2 Mlx90640.cam)).2 ⟨c, by dsimp only; exact hc⟩
  obtain ⟨hbus2, c2, hc2, hcal2⟩ := new_static hst2 hd
  have hcc : c2 = c := by
    dsimp only at hc2
    rw [hc] at hc2
    cases hc2
    rfl
  have hcald : d.calib = Ee640.calibration (eepromOf M) := by rw [hcal2, hcc, ← hcal1, hcal]
  have hd : Driver.new640 m (recorded (cameraBus addr)) (M, []) addr = (s', .ok d) := by unfold Driver.new640; exact hd
  obtain ⟨hs, ha⟩ := (C39_constructed_drivers_supported m (recorded (cameraBus addr)) _ addr).1 s' d hd
  have hk := constructed_complete (Or.inl hd)
  let env : Env ((Word → Word) × List (Txn Unit Unit)) Unit Unit := recordedEnv ⟨m, 24, cameraBus addr⟩
  have hs : Supported env d := hs
  -- the memory, but for the registers, is as in the beginning
  have mem : ∀ ops : List (Op ℝ), ∀ a, a ≠ 0x8000#16 → a ≠ 0x800D#16 → (runOps env ops d).bus.1 a = M a := by
    have step : ∀ (ops : List (Op ℝ)) d0, Supported env d0 → d0.addr = addr → ∀ a, a ≠ 0x8000#16 → a ≠ 0x800D#16 →
        (runOps env ops d0).bus.1 a = d0.bus.1 a := by
      intro ops
      induction ops with
      | nil => exact fun _ _ _ _ _ _ => rfl
      | cons op ops ih =>
        intro d0 h0 h1 a h2 h3
        obtain ⟨k1, k2, _⟩ := exec_supported h0 op
        have := exec_static h0 (mem := Prod.fst) (by rw [h1]; exact hst2) op a h2 h3
        exact (ih _ k1 (k2.trans h1) a h2 h3).trans this
    intro ops a h1 h2
    rw [step ops d hs ha a h1 h2]
    exact congrFun hbus2 a
  have hcl : ∀ ops : List (Op ℝ), AsHeard addr (runOps env ops d).bus.2 (runOps env ops d).bus.1 := fun ops =>
    C99_healthy_camera m (cameraBus addr) (M, []) s' addr d 24 id (Or.inl ⟨rfl, hd⟩) hst (hv _) (fun a w h => nomatch h) ops
  obtain ⟨hs1, ha1, hcal3⟩ := runOps_supported hs ops
  have hop := healthy_call (mem := Prod.fst) hs1 (by rw [hcal3]; exact hk.kSTo) (by rw [ha1, ha]; exact hst2)
    (by rw [ha1, ha]; exact hv2 _) (Or.inr (by
      rw [hcal3, hcald, mem]
      · exact hfit
      · show (0x072A#16 : Word) ≠ _
        decide
      · show (0x072A#16 : Word) ≠ _
        decide)) (.generateImageSubpageTo sp dest)
  have hmem2 := mem (ops ++ [.generateImageSubpageTo sp dest])
  have hcl2 := hcl (ops ++ [.generateImageSubpageTo sp dest])
  have happ : runOps env (ops ++ [.generateImageSubpageTo sp dest]) d =
      (discardImage (Driver.generateImageSubpageTo env sp dest (runOps env ops d))).1 := by
    unfold runOps
    rw [List.foldl_append]
    rfl
  rw [happ] at hmem2 hcl2
  have hop : (discardImage (Driver.generateImageSubpageTo env sp dest (runOps env ops d))).2 = .ok () := hop
  refine ⟨s', d, (Driver.generateImageSubpageTo env sp dest (runOps env ops d)).1,
    (Driver.generateImageSubpageTo env sp dest (runOps env ops d)).2.1, hd, ?_, ?_⟩
  · show Driver.generateImageSubpageTo env sp dest (runOps env ops d) = _
    revert hop
    generalize Driver.generateImageSubpageTo env sp dest (runOps env ops d) = q
    obtain ⟨q1, q2, q3⟩ := q
    intro hop
    cases q3 with
    | ok u => rfl
    | err e => exact nomatch hop
    | panic => exact nomatch hop
  · revert hmem2 hcl2
    generalize Driver.generateImageSubpageTo env sp dest (runOps env ops d) = q
    obtain ⟨q1, q2, q3⟩ := q
    intro hmem2 hcl2
    have hq : (discardImage (q1, q2, q3)).1 = q1 := by cases q3 <;> rfl
    rw [hq] at hmem2 hcl2
    have hsame : SameEeprom (eepromOf M) (eepromOf q1.bus.1) := by
      intro a h1 h2
      have := eeprom_still h1 h2
      exact (hmem2 _ (fun hc => this.1 (Or.inr hc)) this.2).symm
    refine ⟨hcl2, hsame.regular hreg, ?_⟩
    show Fits16 ((q1.bus.1 0x072A#16).toInt - _)
    rw [hmem2 _ (by decide) (by decide), ← hsame.calibration]
    exact hfit

/-- Everything that `C99_camera_640` assumes holds for a camera with the EEPROM of the datasheet's worked example, after any
history of calls, with the memory of the camera for the memory that was heard. -/
example (m : Mode) (ops : List (Op ℝ)) (sp : Subpage) (dest : List ℝ) :
    ∃ s' d d' dest', Driver.new640 m (recorded (cameraBus 0x33#8)) (exampleMemory words640, []) 0x33#8 = (s', .ok d) ∧
      Driver.generateImageSubpageTo (recordedEnv ⟨m, 24, cameraBus 0x33#8⟩) sp dest
        (runOps (recordedEnv ⟨m, 24, cameraBus 0x33#8⟩) ops d) = (d', dest', .ok ()) ∧
      AsHeard 0x33#8 d'.bus.2 d'.bus.1 ∧ Ee640.Regular (eepromOf d'.bus.1) ∧
      Fits16 ((d'.bus.1 0x072A#16).toInt - (Ee640.calibration (eepromOf d'.bus.1)).vdd25) := by
  obtain ⟨t', e, he, hreg, hfit, hcal, _, _⟩ := camera640_example m
  exact heard_healthy he hreg hcal hfit ops sp dest

end Mlx.Props
