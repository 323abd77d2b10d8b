import Verif.Spec.Replay
import Verif.Proofs.View
import Verif.Props.Stale
/-
A recording of the traffic on a bus, played back.
-/
set_option linter.unusedSectionVars false
set_option autoImplicit false
namespace Mlx.Proofs
open Mlx Mlx.Spec Mlx.Props F32Ops
variable {F σ ER EW : Type} [F32Ops F]

theorem playback_regRead (addr : Byte) (reg : Word) (res : Except ER Word) (rest : List (Txn ER EW)) :
    regRead playback (some (Txn.readReg addr reg res :: rest)) addr reg = (some rest, res) := by
  unfold regRead playback Txn.readReg
  cases res with
  | error e => simp only [List.length_cons, List.length_nil, and_self, if_true]
  | ok w =>
    simp only [List.length_cons, List.length_nil, and_self, if_true, toBe, List.getD_cons_zero, List.getD_cons_succ]
    rw [be16_toBe]

theorem playback_regWrite (addr : Byte) (reg w : Word) (e : Option EW) (rest : List (Txn ER EW)) :
    regWrite playback (some (Txn.writeReg addr reg w e :: rest)) addr reg w = (some rest, e) := by
  unfold regWrite playback Txn.writeReg
  simp only [and_self, if_true]

theorem playback_read (addr : Byte) (out buf bytes : List Byte) (e : Option ER) (rest : List (Txn ER EW))
    (h : bytes.length = buf.length) :
    playback.writeRead (some (Txn.read addr out buf.length (match e with | none => .ok bytes | some e => .error e) :: rest)) addr out
      buf = (some rest, (match e with | none => bytes | some _ => buf), e) := by
  unfold playback
  cases e with
  | none => simp only [and_self, if_true, h]
  | some e => simp only [and_self, if_true]

theorem readRanges_step {τ : Type} (b : Bus τ ER EW) (addr : Byte) (r : PixelRange) (rs : List PixelRange) (s s1 : τ)
    (buf sub : List Byte) (e : Option ER) (hfit : r.bufferOffset + r.length ≤ buf.length)
    (hq : b.writeRead s addr (toBe (BitVec.ofNat 16 r.startAddress)) ((buf.drop r.bufferOffset).take r.length) = (s1, sub, e)) :
    readRanges b addr (r :: rs) s buf =
      match (generalizing := false) e with
      | none => readRanges b addr rs s1 (buf.take r.bufferOffset ++ sub ++ buf.drop (r.bufferOffset + r.length))
      | some e => (s1, buf.take r.bufferOffset ++ sub ++ buf.drop (r.bufferOffset + r.length), .err (.i2cWriteRead e)) := by
  rw [readRanges, if_pos hfit, hq]
  rfl

theorem app2 {α : Type} (s : List α) (a b : α) : s ++ [a] ++ [b] = s ++ [a, b] := by simp
theorem app3 {α : Type} (s : List α) (a b c : α) : s ++ [a] ++ [b] ++ [c] = s ++ [a, b, c] := by simp
theorem app4 {α : Type} (s : List α) (a b c d : α) : s ++ [a] ++ [b] ++ [c] ++ [d] = s ++ [a, b, c, d] := by simp
theorem app5 {α : Type} (s : List α) (a b c d e : α) : s ++ [a] ++ [b] ++ [c] ++ [d] ++ [e] = s ++ [a, b, c, d, e] := by simp

/-- What is used of the mock. -/
structure Strict (pb : Bus (Option (List (Txn ER EW))) ER EW) : Prop where
  read : ∀ (addr : Byte) (out buf bytes : List Byte) (e : Option ER) (rest : List (Txn ER EW)), bytes.length = buf.length →
    pb.writeRead (some (Txn.read addr out buf.length (match e with | none => .ok bytes | some e => .error e) :: rest)) addr out
      buf = (some rest, (match e with | none => bytes | some _ => buf), e)
  regRead : ∀ (addr : Byte) (reg : Word) (res : Except ER Word) (rest : List (Txn ER EW)),
    regRead pb (some (Txn.readReg addr reg res :: rest)) addr reg = (some rest, res)
  regWrite : ∀ (addr : Byte) (reg w : Word) (e : Option EW) (rest : List (Txn ER EW)),
    regWrite pb (some (Txn.writeReg addr reg w e :: rest)) addr reg w = (some rest, e)

theorem playback_strict : Strict (playback (ER := ER) (EW := EW)) := ⟨playback_read, playback_regRead, playback_regWrite⟩

variable {pb : Bus (Option (List (Txn ER EW))) ER EW} (hp : Strict pb)
include hp

theorem playback_readRanges (b : Bus σ ER EW) (addr : Byte) (rs : List PixelRange) (s : σ × List (Txn ER EW)) (buf : List Byte) :
    ∃ ts, (readRanges (recorded b) addr rs s buf).1.2 = s.2 ++ ts ∧
      ∀ rest buf', buf'.length = buf.length →
        (readRanges pb addr rs (some (ts ++ rest)) buf').1 = some rest ∧
        (readRanges pb addr rs (some (ts ++ rest)) buf').2.2 = (readRanges (recorded b) addr rs s buf).2.2 ∧
        ((readRanges (recorded b) addr rs s buf).2.2 = .ok () →
          ∀ j : Nat, (∃ r ∈ rs, InRange r j) ∨ buf[j]? = buf'[j]? →
            (readRanges (recorded b) addr rs s buf).2.1[j]? =
              (readRanges pb addr rs (some (ts ++ rest)) buf').2.1[j]?) := by
  induction rs generalizing s buf with
  | nil =>
    refine ⟨[], (List.append_nil _).symm, fun rest buf' _ => ⟨rfl, rfl, fun _ j hj => ?_⟩⟩
    rcases hj with ⟨r, hr, _⟩ | hj
    · cases hr
    · exact hj
  | cons r rs ih =>
    by_cases hfit : r.bufferOffset + r.length ≤ buf.length
    · have hlen := b.length_eq s.1 addr (toBe (BitVec.ofNat 16 r.startAddress)) ((buf.drop r.bufferOffset).take r.length)
      have hl0 : ((buf.drop r.bufferOffset).take r.length).length = r.length := by
        rw [List.length_take, List.length_drop]; omega
      have hq := recorded_writeRead b s addr (toBe (BitVec.ofNat 16 r.startAddress)) ((buf.drop r.bufferOffset).take r.length)
      rw [hl0] at hlen hq
      generalize b.writeRead s.1 addr (toBe (BitVec.ofNat 16 r.startAddress)) ((buf.drop r.bufferOffset).take r.length) = q
        at hlen hq
      obtain ⟨s1, sub, e⟩ := q
      simp only at hlen hq
      rw [readRanges_step _ _ _ _ _ _ _ _ _ hfit hq]
      cases e with
      | some e =>
        refine ⟨[Txn.read addr (toBe (BitVec.ofNat 16 r.startAddress)) r.length (.error e)], rfl, fun rest buf' hb => ?_⟩
        have hl1 : ((buf'.drop r.bufferOffset).take r.length).length = r.length := by
          rw [List.length_take, List.length_drop]; omega
        have := hp.read addr (toBe (BitVec.ofNat 16 r.startAddress)) ((buf'.drop r.bufferOffset).take r.length) sub
          (some e) rest (by omega)
        rw [hl1] at this
        rw [List.cons_append, List.nil_append, readRanges_step _ _ _ _ _ _ _ _ _ (by omega) this]
        exact ⟨rfl, rfl, fun hc => nomatch hc⟩
      | none =>
        have e1 : buf.take r.bufferOffset ++ sub ++ buf.drop (r.bufferOffset + r.length) =
            splice buf r.bufferOffset sub := by unfold splice; rw [hlen]
        have hsl : (splice buf r.bufferOffset sub).length = buf.length := splice_length _ _ _ (by omega)
        obtain ⟨ts, ht, hr⟩ := ih (s1, s.2 ++ [Txn.read addr (toBe (BitVec.ofNat 16 r.startAddress)) r.length (.ok sub)])
          (splice buf r.bufferOffset sub)
        refine ⟨Txn.read addr (toBe (BitVec.ofNat 16 r.startAddress)) r.length (.ok sub) :: ts, ?_, fun rest buf' hb => ?_⟩
        · rw [e1]
          exact ht.trans (by rw [List.append_assoc]; rfl)
        have hl1 : ((buf'.drop r.bufferOffset).take r.length).length = r.length := by
          rw [List.length_take, List.length_drop]; omega
        have e2 : buf'.take r.bufferOffset ++ sub ++ buf'.drop (r.bufferOffset + r.length) =
            splice buf' r.bufferOffset sub := by unfold splice; rw [hlen]
        have hsl' : (splice buf' r.bufferOffset sub).length = buf'.length := splice_length _ _ _ (by omega)
        have := hp.read addr (toBe (BitVec.ofNat 16 r.startAddress)) ((buf'.drop r.bufferOffset).take r.length) sub
          none (ts ++ rest) (by omega)
        rw [hl1] at this
        rw [List.cons_append, readRanges_step _ _ _ _ _ _ _ _ _ (by omega) this]
        simp only
        rw [e1, e2]
        obtain ⟨i1, i2, i3⟩ := hr rest (splice buf' r.bufferOffset sub) (by omega)
        refine ⟨i1, i2, fun hc j hj => i3 hc j ?_⟩
        by_cases hex : ∃ r' ∈ rs, InRange r' j
        · exact Or.inl hex
        · refine Or.inr ?_
          rw [splice_get _ _ _ (by omega), splice_get _ _ _ (by omega)]
          by_cases hin : r.bufferOffset ≤ j ∧ j < r.bufferOffset + sub.length
          · rw [if_pos hin, if_pos hin]
          · rw [if_neg hin, if_neg hin]
            rcases hj with ⟨r', hr', hin'⟩ | hj
            · rcases List.mem_cons.1 hr' with rfl | hr'
              · exfalso; apply hin; rw [hlen]; exact hin'
              · exact absurd ⟨r', hr', hin'⟩ hex
            · exact hj
    · unfold readRanges
      rw [if_neg hfit]
      refine ⟨[], (List.append_nil _).symm, fun rest buf' hb => ?_⟩
      rw [if_neg (by omega)]
      exact ⟨rfl, rfl, fun hc => nomatch hc⟩

theorem playback_ramData (cam : Cam) (b : Bus σ ER EW) (s : σ × List (Txn ER EW)) (addr : Byte) (sp : Subpage) :
    ∃ ts, (ramDataFromI2c cam (recorded b) s addr sp).1.2 = s.2 ++ ts ∧
      ∀ rest, ramDataFromI2c cam pb (some (ts ++ rest)) addr sp =
        (some rest, (ramDataFromI2c cam (recorded b) s addr sp).2) := by
  unfold ramDataFromI2c
  simp only [readRamValue_eq, regRead_recorded]
  generalize regRead b s.1 addr cam.tAVbe = q1
  obtain ⟨s1, _ | w1⟩ := q1
  · exact ⟨[_], rfl, fun rest => by simp only [List.cons_append, List.nil_append, hp.regRead]⟩
  simp only
  generalize regRead b s1 addr cam.tAPtat = q2
  obtain ⟨s2, _ | w2⟩ := q2
  · exact ⟨_, app2 .., fun rest => by
      simp only [List.cons_append, List.nil_append, hp.regRead]⟩
  simp only
  generalize regRead b s2 addr cam.vddPixel = q3
  obtain ⟨s3, _ | w3⟩ := q3
  · exact ⟨_, app3 .., fun rest => by
      simp only [List.cons_append, List.nil_append, hp.regRead]⟩
  simp only
  generalize regRead b s3 addr cam.gain = q4
  obtain ⟨s4, _ | w4⟩ := q4
  · exact ⟨_, app4 .., fun rest => by
      simp only [List.cons_append, List.nil_append, hp.regRead]⟩
  simp only
  generalize regRead b s4 addr (cam.compensationPixel sp) = q5
  obtain ⟨s5, _ | w5⟩ := q5 <;>
  exact ⟨_, app5 .., fun rest => by
      simp only [List.cons_append, List.nil_append, hp.regRead]⟩

variable {m : Mode} {n : Nat} {b : Bus σ ER EW}

theorem playback_readRam (d : Driver F (σ × List (Txn ER EW))) (hs : Supported ⟨m, n, recorded b⟩ d) (sp : Subpage) :
    ∃ ts, (Driver.readRam ⟨m, n, recorded b⟩ sp d).1.bus.2 = d.bus.2 ++ ts ∧
      ∀ rest buf, buf.length = d.pixelBuf.length →
        ∃ buf', buf'.length = d.pixelBuf.length ∧
          Driver.readRam ⟨m, n, pb⟩ sp (onPlayback d (ts ++ rest) buf) =
            (onPlayback (Driver.readRam ⟨m, n, recorded b⟩ sp d).1 rest buf', (Driver.readRam ⟨m, n, recorded b⟩ sp d).2) ∧
          (∀ ram, (Driver.readRam ⟨m, n, recorded b⟩ sp d).2 = .ok ram →
            ∀ i : Nat, (d.calib.cam.pixelsInSubpage sp d.accessPattern)[i]? = some true →
              SameBytes (Driver.readRam ⟨m, n, recorded b⟩ sp d).1.pixelBuf buf' i) := by
  obtain ⟨rs, hrs, _⟩ := supported_ranges hs sp d.accessPattern
  have hcov := selected_covered hs sp rs hrs
  obtain ⟨ts, ht, hr⟩ := playback_readRanges hp b d.addr rs d.bus d.pixelBuf
  have hkb : ∀ (st : Option (List (Txn ER EW))) (buf : List Byte),
      (readRanges pb d.addr rs st buf).2.1.length = buf.length := fun st buf => readRanges_length pb d.addr rs st buf
  unfold Driver.readRam Mlx.readRam
  simp only
  rw [hrs]
  simp only
  generalize readRanges (recorded b) d.addr rs d.bus d.pixelBuf = q at ht hr ⊢
  obtain ⟨s1, px, r⟩ := q
  simp only at ht hr
  cases r with
  | err e =>
    refine ⟨ts, ht, fun rest buf hb => ?_⟩
    obtain ⟨h1, h2, -⟩ := hr rest buf hb
    have h3 := hkb (some (ts ++ rest)) buf
    simp only [onPlayback, view]
    rw [hrs]
    simp only
    generalize readRanges pb d.addr rs (some (ts ++ rest)) buf = q' at h1 h2 h3 ⊢
    obtain ⟨s2, px2, r2⟩ := q'
    simp only at h1 h2 h3
    subst h1 h2
    exact ⟨px2, h3.trans hb, rfl, fun _ hc => nomatch hc⟩
  | panic =>
    refine ⟨ts, ht, fun rest buf hb => ?_⟩
    obtain ⟨h1, h2, -⟩ := hr rest buf hb
    have h3 := hkb (some (ts ++ rest)) buf
    simp only [onPlayback, view]
    rw [hrs]
    simp only
    generalize readRanges pb d.addr rs (some (ts ++ rest)) buf = q' at h1 h2 h3 ⊢
    obtain ⟨s2, px2, r2⟩ := q'
    simp only at h1 h2 h3
    subst h1 h2
    exact ⟨px2, h3.trans hb, rfl, fun _ hc => nomatch hc⟩
  | ok u =>
    obtain ⟨ts', ht', hr'⟩ := playback_ramData hp d.calib.cam b s1 d.addr sp
    refine ⟨ts ++ ts', ?_, fun rest buf hb => ?_⟩
    · show (ramDataFromI2c d.calib.cam (recorded b) s1 d.addr sp).1.2 = _
      rw [ht', ht, List.append_assoc]
    obtain ⟨h1, h2, h4⟩ := hr (ts' ++ rest) buf hb
    have h3 := hkb (some (ts ++ (ts' ++ rest))) buf
    have h5 := hr' rest
    simp only [onPlayback, view]
    rw [hrs, List.append_assoc]
    simp only
    generalize readRanges pb d.addr rs (some (ts ++ (ts' ++ rest))) buf = q' at h1 h2 h3 h4 ⊢
    obtain ⟨s2, px2, r2⟩ := q'
    simp only at h1 h2 h3 h4
    subst h1 h2
    simp only
    rw [h5]
    refine ⟨px2, h3.trans hb, rfl, fun ram _ i hi => ?_⟩
    obtain ⟨r, hr, hf⟩ := hcov i hi
    unfold Fills at hf
    constructor
    · exact h4 trivial _ (Or.inl ⟨r, hr, by unfold InRange; omega⟩)
    · exact h4 trivial _ (Or.inl ⟨r, hr, by unfold InRange; omega⟩)

theorem playback_image (d : Driver F (σ × List (Txn ER EW))) (hs : Supported ⟨m, n, recorded b⟩ d) (sp : Subpage) (dest : List F)
    (conv : Driver F (σ × List (Txn ER EW)) → List Byte → RamData → Res (Err ER EW) (F × List F))
    (conv' : Driver F (Option (List (Txn ER EW))) → List Byte → RamData → Res (Err ER EW) (F × List F))
    (hconv : ∀ d log px px' ram,
      (∀ i : Nat, (d.calib.cam.pixelsInSubpage sp d.accessPattern)[i]? = some true → SameBytes px px' i) →
      conv' (onPlayback d log px') px' ram = conv d px ram) :
    PlaysBack d (imageWith ⟨m, n, recorded b⟩ sp dest d conv) (fun e => imageWith ⟨m, n, pb⟩ sp dest e conv') := by
  obtain ⟨ts, ht, hr⟩ := playback_readRam hp d hs sp
  have hk := (readRam_keeps ⟨m, n, recorded b⟩ sp d).1
  unfold imageWith
  generalize Driver.readRam ⟨m, n, recorded b⟩ sp d = q at ht hr hk ⊢
  obtain ⟨d1, r⟩ := q
  simp only at hk
  have hc : d1.calib = d.calib ∧ d1.accessPattern = d.accessPattern := by rw [hk]; exact ⟨rfl, rfl⟩
  simp only at ht hr hc
  cases r with
  | err e =>
    refine ⟨ts, ht, fun rest buf hb => ?_⟩
    obtain ⟨buf', h1, h2, -⟩ := hr rest buf hb
    beta_reduce
    rw [h2]
    exact ⟨buf', h1, rfl⟩
  | panic =>
    refine ⟨ts, ht, fun rest buf hb => ?_⟩
    obtain ⟨buf', h1, h2, -⟩ := hr rest buf hb
    beta_reduce
    rw [h2]
    exact ⟨buf', h1, rfl⟩
  | ok ram =>
    cases hv : conv d1 d1.pixelBuf ram with
    | err e =>
      refine ⟨ts, by simp only [hv]; exact ht, fun rest buf hb => ?_⟩
      obtain ⟨buf', h1, h2, h3⟩ := hr rest buf hb
      have := hconv d1 rest d1.pixelBuf buf' ram (by rw [hc.1, hc.2]; exact h3 ram rfl)
      rw [hv] at this
      beta_reduce
      rw [h2]
      simp only [hv]
      rw [show (onPlayback d1 rest buf').pixelBuf = buf' from rfl, this]
      exact ⟨buf', h1, rfl⟩
    | panic =>
      refine ⟨ts, by simp only [hv]; exact ht, fun rest buf hb => ?_⟩
      obtain ⟨buf', h1, h2, h3⟩ := hr rest buf hb
      have := hconv d1 rest d1.pixelBuf buf' ram (by rw [hc.1, hc.2]; exact h3 ram rfl)
      rw [hv] at this
      beta_reduce
      rw [h2]
      simp only [hv]
      rw [show (onPlayback d1 rest buf').pixelBuf = buf' from rfl, this]
      exact ⟨buf', h1, rfl⟩
    | ok v =>
      refine ⟨ts, by simp only [hv]; exact ht, fun rest buf hb => ?_⟩
      obtain ⟨buf', h1, h2, h3⟩ := hr rest buf hb
      have := hconv d1 rest d1.pixelBuf buf' ram (by rw [hc.1, hc.2]; exact h3 ram rfl)
      rw [hv] at this
      beta_reduce
      rw [h2]
      simp only [hv]
      rw [show (onPlayback d1 rest buf').pixelBuf = buf' from rfl, this]
      exact ⟨buf', h1, rfl⟩

/-! ### Methods -/

variable (d : Driver F (σ × List (Txn ER EW)))

theorem playback_first (reg : Word) (rest : List (Txn ER EW)) (buf : List Byte) (res : Except ER Word) :
    regRead pb (onPlayback d (Txn.readReg d.addr reg res :: rest) buf).bus
      (onPlayback d (Txn.readReg d.addr reg res :: rest) buf).addr reg = (some rest, res) :=
  hp.regRead d.addr reg res rest

theorem playback_get (f : CtrlField) (hf : f ≠ .stepMode) :
    PlaysBack d (driverGet ⟨m, n, recorded b⟩ f hf d) (driverGet ⟨m, n, pb⟩ f hf) := by
  rw [driverGet_eq, regRead_recorded]
  simp only
  generalize regRead b d.bus.1 d.addr 0x800D#16 = q
  obtain ⟨s, e | w⟩ := q
  all_goals
    refine ⟨[_], rfl, fun rest buf hb => ⟨buf, hb, ?_⟩⟩
    rw [driverGet_eq, List.cons_append, List.nil_append, playback_first hp]
    rfl

theorem playback_set (f : CtrlField) (hf : f ≠ .stepMode) (v : f.Val) :
    PlaysBack d (driverSet ⟨m, n, recorded b⟩ f hf v d) (driverSet ⟨m, n, pb⟩ f hf v) := by
  rw [driverSet_eq, regRead_recorded]
  simp only
  generalize regRead b d.bus.1 d.addr 0x800D#16 = q
  obtain ⟨s, e | w⟩ := q
  · refine ⟨[_], rfl, fun rest buf hb => ⟨buf, hb, ?_⟩⟩
    rw [driverSet_eq, List.cons_append, List.nil_append, playback_first hp]
    rfl
  · simp only
    by_cases hc : f.code (f.valueIn w) = f.code v
    · rw [if_pos hc]
      refine ⟨[_], rfl, fun rest buf hb => ⟨buf, hb, ?_⟩⟩
      rw [driverSet_eq, List.cons_append, List.nil_append, playback_first hp]
      simp only
      rw [if_pos hc]
      rfl
    · rw [if_neg hc, regWrite_recorded]
      generalize regWrite b s d.addr 0x800D#16 (f.set ⟨w⟩ v).raw = q2
      obtain ⟨s2, e2⟩ := q2
      refine ⟨_, app2 .., fun rest buf hb => ⟨buf, hb, ?_⟩⟩
      rw [driverSet_eq, List.cons_append, List.cons_append, List.nil_append, playback_first hp]
      simp only
      rw [if_neg hc]
      have := hp.regWrite d.addr 0x800D#16 (f.set ⟨w⟩ v).raw e2 rest
      simp only [onPlayback, view] at this ⊢
      rw [this]
      rfl

theorem playback_lastMeasured :
    PlaysBack d (Driver.lastMeasuredSubpage ⟨m, n, recorded b⟩ d) (Driver.lastMeasuredSubpage ⟨m, n, pb⟩) := by
  unfold Driver.lastMeasuredSubpage
  rw [dm_bind, statusRegister_eq, regRead_recorded]
  simp only
  generalize regRead b d.bus.1 d.addr 0x8000#16 = q
  obtain ⟨s, e | w⟩ := q
  all_goals
    refine ⟨[_], rfl, fun rest buf hb => ⟨buf, hb, ?_⟩⟩
    rw [dm_bind, statusRegister_eq, List.cons_append, List.nil_append, playback_first hp]
    simp only [DM.lift, status_subpage]
    rfl

theorem playback_dataAvailable :
    PlaysBack d (Driver.dataAvailable ⟨m, n, recorded b⟩ d) (Driver.dataAvailable ⟨m, n, pb⟩) := by
  unfold Driver.dataAvailable
  rw [dm_bind, statusRegister_eq, regRead_recorded]
  simp only
  generalize regRead b d.bus.1 d.addr 0x8000#16 = q
  obtain ⟨s, e | w⟩ := q
  · refine ⟨[_], rfl, fun rest buf hb => ⟨buf, hb, ?_⟩⟩
    rw [dm_bind, statusRegister_eq, List.cons_append, List.nil_append, playback_first hp]
    rfl
  · cases hw : w.getLsbD 3
    · simp only [status_newData, hw]
      refine ⟨[_], rfl, fun rest buf hb => ⟨buf, hb, ?_⟩⟩
      rw [dm_bind, statusRegister_eq, List.cons_append, List.nil_append, playback_first hp]
      simp only [hw]
      rfl
    · simp only [status_newData, hw, if_true]
      rw [dm_bind]
      simp only [DM.lift, status_subpage]
      refine ⟨[_], rfl, fun rest buf hb => ⟨buf, hb, ?_⟩⟩
      rw [dm_bind, statusRegister_eq, List.cons_append, List.nil_append, playback_first hp]
      simp only [hw, if_true]
      rw [dm_bind]
      simp only [DM.lift]
      rfl

theorem playback_overwriteEnabled :
    PlaysBack d (Driver.overwriteEnabled ⟨m, n, recorded b⟩ d) (Driver.overwriteEnabled ⟨m, n, pb⟩) := by
  unfold Driver.overwriteEnabled
  rw [dm_bind, statusRegister_eq, regRead_recorded]
  simp only
  generalize regRead b d.bus.1 d.addr 0x8000#16 = q
  obtain ⟨s, e | w⟩ := q
  all_goals
    refine ⟨[_], rfl, fun rest buf hb => ⟨buf, hb, ?_⟩⟩
    rw [dm_bind, statusRegister_eq, List.cons_append, List.nil_append, playback_first hp]
    rfl

theorem playback_reset :
    PlaysBack d (Driver.resetDataAvailable ⟨m, n, recorded b⟩ d) (Driver.resetDataAvailable ⟨m, n, pb⟩) := by
  rw [resetDataAvailable_eq, regRead_recorded]
  simp only
  generalize regRead b d.bus.1 d.addr 0x8000#16 = q
  obtain ⟨s, e | w⟩ := q
  · refine ⟨[_], rfl, fun rest buf hb => ⟨buf, hb, ?_⟩⟩
    rw [resetDataAvailable_eq, List.cons_append, List.nil_append, playback_first hp]
    rfl
  · simp only
    rw [regWrite_recorded]
    generalize regWrite b s d.addr 0x8000#16 (StatusReg.resetNewData ⟨w⟩).raw = q2
    obtain ⟨s2, e2⟩ := q2
    refine ⟨_, app2 .., fun rest buf hb => ⟨buf, hb, ?_⟩⟩
    rw [resetDataAvailable_eq, List.cons_append, List.cons_append, List.nil_append, playback_first hp]
    have := hp.regWrite d.addr 0x8000#16 (StatusReg.resetNewData ⟨w⟩).raw e2 rest
    simp only [onPlayback, view] at this ⊢
    rw [this]

theorem playback_setOverwrite (v : Bool) :
    PlaysBack d (Driver.setOverwriteEnabled ⟨m, n, recorded b⟩ v d) (Driver.setOverwriteEnabled ⟨m, n, pb⟩ v) := by
  rw [setOverwrite_eq, regRead_recorded]
  simp only
  generalize regRead b d.bus.1 d.addr 0x8000#16 = q
  obtain ⟨s, e | w⟩ := q
  · refine ⟨[_], rfl, fun rest buf hb => ⟨buf, hb, ?_⟩⟩
    rw [setOverwrite_eq, List.cons_append, List.nil_append, playback_first hp]
    rfl
  · simp only
    by_cases hc : w.getLsbD 4 = v
    · rw [if_pos hc]
      refine ⟨[_], rfl, fun rest buf hb => ⟨buf, hb, ?_⟩⟩
      rw [setOverwrite_eq, List.cons_append, List.nil_append, playback_first hp]
      simp only
      rw [if_pos hc]
      rfl
    · rw [if_neg hc, regWrite_recorded]
      generalize regWrite b s d.addr 0x8000#16 (StatusReg.setOverwriteEnabled ⟨w⟩ v).raw = q2
      obtain ⟨s2, e2⟩ := q2
      refine ⟨_, app2 .., fun rest buf hb => ⟨buf, hb, ?_⟩⟩
      rw [setOverwrite_eq, List.cons_append, List.cons_append, List.nil_append, playback_first hp]
      simp only
      rw [if_neg hc]
      have := hp.regWrite d.addr 0x8000#16 (StatusReg.setOverwriteEnabled ⟨w⟩ v).raw e2 rest
      simp only [onPlayback, view] at this ⊢
      rw [this]

theorem playback_poll (fuel : Nat) :
    PlaysBack d (Driver.pollStatus ⟨m, n, recorded b⟩ fuel d) (Driver.pollStatus ⟨m, n, pb⟩ fuel) := by
  induction fuel generalizing d with
  | zero => exact ⟨[], (List.append_nil _).symm, fun rest buf hb => ⟨buf, hb, rfl⟩⟩
  | succ k ih =>
    unfold Driver.pollStatus
    rw [dm_bind, statusRegister_eq, regRead_recorded]
    simp only
    generalize regRead b d.bus.1 d.addr 0x8000#16 = q
    obtain ⟨s, e | w⟩ := q
    · refine ⟨[_], rfl, fun rest buf hb => ⟨buf, hb, ?_⟩⟩
      rw [dm_bind, statusRegister_eq, List.cons_append, List.nil_append, playback_first hp]
      rfl
    · simp only
      cases hw : StatusReg.newData ⟨w⟩ with
      | true =>
        simp only [if_true]
        refine ⟨[_], rfl, fun rest buf hb => ⟨buf, hb, ?_⟩⟩
        rw [dm_bind, statusRegister_eq, List.cons_append, List.nil_append, playback_first hp]
        simp only [hw, if_true]
        rfl
      | false =>
        obtain ⟨ts, ht, hr⟩ := ih { d with bus := (s, d.bus.2 ++ [Txn.readReg d.addr 0x8000#16 (.ok w)]) }
        refine ⟨Txn.readReg d.addr 0x8000#16 (.ok w) :: ts, ?_, fun rest buf hb => ?_⟩
        · exact ht.trans (by rw [List.append_assoc]; rfl)
        · obtain ⟨buf', h1, h2⟩ := hr rest buf hb
          refine ⟨buf', h1, ?_⟩
          rw [dm_bind, statusRegister_eq, List.cons_append, playback_first hp]
          simp only [hw]
          exact h2

theorem playback_raw (hs : Supported ⟨m, n, recorded b⟩ d) (sp : Subpage) (dest : List F) :
    PlaysBack d (Driver.generateRawImageSubpageTo ⟨m, n, recorded b⟩ sp dest d)
      (Driver.generateRawImageSubpageTo ⟨m, n, pb⟩ sp dest) := by
  have := playback_image hp d hs sp dest (fun d => toRawImage m d sp dest) (fun d => toRawImage m d sp dest)
    (fun d log px px' ram hv => (raw_congr _ _ _ _ _ _ _ _ _ _ _ hv).symm)
  rw [← rawImageSubpage_eq] at this
  rwa [funext (rawImageSubpage_eq (⟨m, n, pb⟩ : Env _ ER EW) sp dest)]

theorem playback_subpage (hs : Supported ⟨m, n, recorded b⟩ d) (sp : Subpage) (dest : List F) :
    PlaysBack d (Driver.generateImageSubpageTo ⟨m, n, recorded b⟩ sp dest d)
      (Driver.generateImageSubpageTo ⟨m, n, pb⟩ sp dest) := by
  have := playback_image hp d hs sp dest (fun d => toTemperatures m d sp dest) (fun d => toTemperatures m d sp dest)
    (fun d log px px' ram hv => (temps_congr _ _ _ _ _ _ _ _ _ _ _ _ hv).symm)
  rw [← imageSubpage_eq] at this
  rwa [funext (imageSubpage_eq (⟨m, n, pb⟩ : Env _ ER EW) sp dest)]

theorem playback_imageTo (hs : Supported ⟨m, n, recorded b⟩ d) (dest : List F) :
    PlaysBack d (Driver.generateImageTo ⟨m, n, recorded b⟩ dest d) (Driver.generateImageTo ⟨m, n, pb⟩ dest) := by
  rw [generateImageTo_eq, regRead_recorded]
  simp only
  generalize regRead b d.bus.1 d.addr 0x8000#16 = q
  obtain ⟨s, e | w⟩ := q
  · refine ⟨[_], rfl, fun rest buf hb => ⟨buf, hb, ?_⟩⟩
    rw [generateImageTo_eq, List.cons_append, List.nil_append, playback_first hp]
    rfl
  · obtain ⟨ts, ht, hr⟩ := playback_subpage hp { d with bus := (s, d.bus.2 ++ [Txn.readReg d.addr 0x8000#16 (.ok w)]) }
      ⟨hs.1, hs.2, hs.3⟩ (if w.getLsbD 0 then .one else .zero) dest
    refine ⟨Txn.readReg d.addr 0x8000#16 (.ok w) :: ts, ht.trans (by rw [List.append_assoc]; rfl), fun rest buf hb => ?_⟩
    obtain ⟨buf', h1, h2⟩ := hr rest buf hb
    refine ⟨buf', h1, ?_⟩
    rw [generateImageTo_eq, List.cons_append, playback_first hp]
    exact h2

theorem playback_ifReady (hs : Supported ⟨m, n, recorded b⟩ d) (dest : List F) :
    PlaysBack d (Driver.generateImageIfReady ⟨m, n, recorded b⟩ dest d) (Driver.generateImageIfReady ⟨m, n, pb⟩ dest) := by
  rw [ifReady_eq, regRead_recorded]
  simp only
  generalize regRead b d.bus.1 d.addr 0x8000#16 = q
  obtain ⟨s, e | w⟩ := q
  · refine ⟨[_], rfl, fun rest buf hb => ⟨buf, hb, ?_⟩⟩
    rw [ifReady_eq, List.cons_append, List.nil_append, playback_first hp]
    rfl
  · simp only
    cases hw : w.getLsbD 3 with
    | false =>
      refine ⟨[_], rfl, fun rest buf hb => ⟨buf, hb, ?_⟩⟩
      rw [ifReady_eq, List.cons_append, List.nil_append, playback_first hp]
      simp only [hw]
      rfl
    | true =>
      simp only [if_true]
      obtain ⟨ts, ht, hr⟩ := playback_subpage hp { d with bus := (s, d.bus.2 ++ [Txn.readReg d.addr 0x8000#16 (.ok w)]) }
        ⟨hs.1, hs.2, hs.3⟩ (if w.getLsbD 0 then .one else .zero) dest
      generalize Driver.generateImageSubpageTo ⟨m, n, recorded b⟩ (if w.getLsbD 0 then .one else .zero) dest
        { d with bus := (s, d.bus.2 ++ [Txn.readReg d.addr 0x8000#16 (.ok w)]) } = q2 at ht hr ⊢
      obtain ⟨d2, dest2, r⟩ := q2
      simp only at ht hr
      have ht1 : d2.bus.2 = d.bus.2 ++ (Txn.readReg d.addr 0x8000#16 (.ok w) :: ts) :=
        ht.trans (by rw [List.append_assoc]; rfl)
      cases r with
      | err e =>
        refine ⟨_, ht1, fun rest buf hb => ?_⟩
        obtain ⟨buf', h1, h2⟩ := hr rest buf hb
        refine ⟨buf', h1, ?_⟩
        rw [ifReady_eq, List.cons_append, playback_first hp]
        simp only [hw, if_true]
        have h3 : ({ onPlayback d (Txn.readReg d.addr 0x8000#16 (.ok w) :: (ts ++ rest)) buf with bus := some (ts ++ rest) } :
          Driver F (Option (List (Txn ER EW)))) = onPlayback { d with bus := (s, d.bus.2 ++
            [Txn.readReg d.addr 0x8000#16 (.ok w)]) } (ts ++ rest) buf := rfl
        rw [h3, h2]
      | panic =>
        refine ⟨_, ht1, fun rest buf hb => ?_⟩
        obtain ⟨buf', h1, h2⟩ := hr rest buf hb
        refine ⟨buf', h1, ?_⟩
        rw [ifReady_eq, List.cons_append, playback_first hp]
        simp only [hw, if_true]
        have h3 : ({ onPlayback d (Txn.readReg d.addr 0x8000#16 (.ok w) :: (ts ++ rest)) buf with bus := some (ts ++ rest) } :
          Driver F (Option (List (Txn ER EW)))) = onPlayback { d with bus := (s, d.bus.2 ++
            [Txn.readReg d.addr 0x8000#16 (.ok w)]) } (ts ++ rest) buf := rfl
        rw [h3, h2]
      | ok u =>
        simp only
        rw [regWrite_recorded]
        generalize regWrite b d2.bus.1 d2.addr 0x8000#16 (StatusReg.resetNewData ⟨w⟩).raw = q3
        obtain ⟨s3, e3⟩ := q3
        refine ⟨(Txn.readReg d.addr 0x8000#16 (.ok w) :: ts) ++
          [Txn.writeReg d2.addr 0x8000#16 (StatusReg.resetNewData ⟨w⟩).raw e3], ?_, fun rest buf hb => ?_⟩
        · simp only
          rw [ht1, List.append_assoc]
        obtain ⟨buf', h1, h2⟩ := hr (Txn.writeReg d2.addr 0x8000#16 (StatusReg.resetNewData ⟨w⟩).raw e3 :: rest) buf hb
        refine ⟨buf', h1, ?_⟩
        rw [List.append_assoc, ifReady_eq, List.cons_append, playback_first hp]
        simp only [hw, if_true, List.cons_append, List.nil_append]
        have h3 : ∀ x, ({ onPlayback d (Txn.readReg d.addr 0x8000#16 (.ok w) :: x) buf with bus := some x } :
          Driver F (Option (List (Txn ER EW)))) = onPlayback { d with bus := (s, d.bus.2 ++
            [Txn.readReg d.addr 0x8000#16 (.ok w)]) } x buf := fun _ => rfl
        rw [h3, h2]
        have := hp.regWrite d2.addr 0x8000#16 (StatusReg.resetNewData ⟨w⟩).raw e3 rest
        simp only [onPlayback, view] at this ⊢
        rw [this]

theorem playback_synchronize (fuel : Nat) :
    PlaysBack d (Driver.synchronize ⟨m, n, recorded b⟩ fuel d) (Driver.synchronize ⟨m, n, pb⟩ fuel) := by
  rw [synchronize_eq, regRead_recorded]
  simp only
  generalize regRead b d.bus.1 d.addr 0x8000#16 = q
  obtain ⟨s, e | w⟩ := q
  · refine ⟨[_], rfl, fun rest buf hb => ⟨buf, hb, ?_⟩⟩
    rw [synchronize_eq, List.cons_append, List.nil_append, playback_first hp]
    rfl
  · simp only
    rw [regWrite_recorded]
    generalize regWrite b s d.addr 0x8000#16 (syncWord w) = q2
    obtain ⟨s2, _ | e⟩ := q2
    · obtain ⟨ts, ht, hr⟩ := playback_poll hp (m := m) (n := n) (b := b) { d with bus := (s2, d.bus.2 ++
        [Txn.readReg d.addr 0x8000#16 (.ok w)] ++ [Txn.writeReg d.addr 0x8000#16 (syncWord w) none]) } fuel
      refine ⟨Txn.readReg d.addr 0x8000#16 (.ok w) :: Txn.writeReg d.addr 0x8000#16 (syncWord w) none :: ts,
        ht.trans (by simp only [List.append_assoc, List.cons_append, List.nil_append]), fun rest buf hb => ?_⟩
      obtain ⟨buf', h1, h2⟩ := hr rest buf hb
      refine ⟨buf', h1, ?_⟩
      rw [synchronize_eq, List.cons_append, List.cons_append, playback_first hp]
      have := hp.regWrite d.addr 0x8000#16 (syncWord w) none (ts ++ rest)
      simp only
      rw [show (onPlayback d (Txn.readReg d.addr 0x8000#16 (.ok w) :: Txn.writeReg d.addr 0x8000#16 (syncWord w) none ::
        (ts ++ rest)) buf).addr = d.addr from rfl, this]
      exact h2
    · refine ⟨_, app2 .., fun rest buf hb => ⟨buf, hb, ?_⟩⟩
      rw [synchronize_eq, List.cons_append, List.cons_append, List.nil_append, playback_first hp]
      have := hp.regWrite d.addr 0x8000#16 (syncWord w) (some e) rest
      simp only
      rw [show (onPlayback d (Txn.readReg d.addr 0x8000#16 (.ok w) :: Txn.writeReg d.addr 0x8000#16 (syncWord w) (some e) ::
        rest) buf).addr = d.addr from rfl, this]
      rfl

theorem playback_discard {α : Type} {r : Driver F (σ × List (Txn ER EW)) × Res (Err ER EW) α}
    {call : Driver F (Option (List (Txn ER EW))) → Driver F (Option (List (Txn ER EW))) × Res (Err ER EW) α}
    (h : PlaysBack d r call) : PlaysBack d (discard r) (fun e => discard (call e)) := by
  obtain ⟨ts, ht, hr⟩ := h
  obtain ⟨r1, r2⟩ := r
  refine ⟨ts, by cases r2 <;> exact ht, fun rest buf hb => ?_⟩
  obtain ⟨buf', h1, h2⟩ := hr rest buf hb
  refine ⟨buf', h1, ?_⟩
  beta_reduce
  rw [h2]
  cases r2 <;> rfl

theorem playback_discardImage {α : Type} {r : Driver.ImageResult F (σ × List (Txn ER EW)) ER EW α}
    {call : Driver F (Option (List (Txn ER EW))) → Driver.ImageResult F (Option (List (Txn ER EW))) ER EW α}
    (h : PlaysBack d r call) : PlaysBack d (discardImage r) (fun e => discardImage (call e)) := by
  obtain ⟨ts, ht, hr⟩ := h
  obtain ⟨r1, r2, r3⟩ := r
  refine ⟨ts, by cases r3 <;> exact ht, fun rest buf hb => ?_⟩
  obtain ⟨buf', h1, h2⟩ := hr rest buf hb
  refine ⟨buf', h1, ?_⟩
  beta_reduce
  rw [h2]
  cases r3 <;> rfl

/-- Any call. -/
theorem playback_exec (hs : Supported ⟨m, n, recorded b⟩ d) (op : Op F) :
    PlaysBack d (op.exec ⟨m, n, recorded b⟩ d) (op.exec ⟨m, n, pb⟩) := by
  have same : ∀ f : Driver F (Option (List (Txn ER EW))) → Driver F (Option (List (Txn ER EW))) × Res (Err ER EW) Unit,
      ∀ r : Driver F (σ × List (Txn ER EW)) × Res (Err ER EW) Unit, r.1.bus.2 = d.bus.2 →
      (∀ log buf, f (onPlayback d log buf) = (onPlayback r.1 log buf, r.2)) → PlaysBack d r f :=
    fun f r hb hf => ⟨[], hb.trans (List.append_nil _).symm, fun rest buf h => ⟨buf, h, hf rest buf⟩⟩
  cases op with
  | lastMeasuredSubpage => exact playback_discard hp d (playback_lastMeasured hp d)
  | dataAvailable => exact playback_discard hp d (playback_dataAvailable hp d)
  | overwriteEnabled => exact playback_discard hp d (playback_overwriteEnabled hp d)
  | resetDataAvailable => exact playback_discard hp d (playback_reset hp d)
  | setOverwriteEnabled v => exact playback_discard hp d (playback_setOverwrite hp d v)
  | subpagesEnabled => exact playback_discard hp d (playback_get hp d .useSubpages (by decide))
  | dataHoldEnabled => exact playback_discard hp d (playback_get hp d .dataHold (by decide))
  | subpageRepeat => exact playback_discard hp d (playback_get hp d .subpageRepeat (by decide))
  | selectedSubpage => exact playback_discard hp d (playback_get hp d .subpage (by decide))
  | frameRate => exact playback_discard hp d (playback_get hp d .frameRate (by decide))
  | resolution => exact playback_discard hp d (playback_get hp d .resolution (by decide))
  | accessPattern => exact playback_discard hp d (playback_get hp d .accessPattern (by decide))
  | setUseSubpages v => exact playback_discard hp d (playback_set hp d .useSubpages (by decide) v)
  | setDataHold v => exact playback_discard hp d (playback_set hp d .dataHold (by decide) v)
  | setSubpageRepeat v => exact playback_discard hp d (playback_set hp d .subpageRepeat (by decide) v)
  | setSubpage v => exact playback_discard hp d (playback_set hp d .subpage (by decide) v)
  | setFrameRate v => exact playback_discard hp d (playback_set hp d .frameRate (by decide) v)
  | setResolution v => exact playback_discard hp d (playback_set hp d .resolution (by decide) v)
  | setAccessPattern v => exact playback_discard hp d (playback_set hp d .accessPattern (by decide) v)
  | overrideEmissivity v => exact same _ _ rfl fun _ _ => rfl
  | useDefaultEmissivity => exact same _ _ rfl fun _ _ => rfl
  | setReflectedTemperature v => exact same _ _ rfl fun _ _ => rfl
  | generateRawImageSubpageTo sp dest => exact playback_discardImage hp d (playback_raw hp d hs sp dest)
  | generateImageSubpageTo sp dest => exact playback_discardImage hp d (playback_subpage hp d hs sp dest)
  | generateImageTo dest => exact playback_discardImage hp d (playback_imageTo hp d hs dest)
  | generateImageIfReady dest => exact playback_discardImage hp d (playback_ifReady hp d hs dest)
  | synchronize fuel => exact playback_discard hp d (playback_synchronize hp d fuel)

omit hp in
theorem new_step {C τ : Type} (fromData : List Byte → Res LibErr C) (toCalib : C → Calib F) (b : Bus τ ER EW) (k : Nat) (addr : Byte)
    (s s1 : τ) (bytes : List Byte) (e : Option ER)
    (hq : b.writeRead s addr (toBe 0x2400#16) (List.replicate ((0x273F - 0x2400 + 1) * 2) 0#8) = (s1, bytes, e)) :
    Driver.new fromData toCalib b k s addr =
      match (generalizing := false) e with
      | some e => (s1, .err (.i2cWriteRead e))
      | none =>
        match fromData bytes with
        | .ok c => Driver.newWithCalibration b k s1 addr (toCalib c)
        | .err e => (s1, .err (.library e))
        | .panic => (s1, .panic) := by
  unfold Driver.new calibFromI2c Bus.read
  rw [hq]
  cases e with
  | some e => rfl
  | none =>
    simp only
    cases fromData bytes <;> rfl

/-- Construction. -/
theorem playback_new {C : Type} (fromData : List Byte → Res LibErr C) (toCalib : C → Calib F) (k : Nat) (addr : Byte)
    (s : σ × List (Txn ER EW)) :
    ∃ ts, (Driver.new fromData toCalib (recorded b) k s addr).1.2 = s.2 ++ ts ∧
      ∀ rest, Driver.new fromData toCalib pb k (some (ts ++ rest)) addr =
        (some rest,
          match (Driver.new fromData toCalib (recorded b) k s addr).2 with
          | .ok d => .ok (onPlayback d rest d.pixelBuf)
          | .err e => .err e
          | .panic => .panic) := by
  have hlen := b.length_eq s.1 addr (toBe 0x2400#16) (List.replicate ((0x273F - 0x2400 + 1) * 2) 0#8)
  have hq := recorded_writeRead b s addr (toBe 0x2400#16) (List.replicate ((0x273F - 0x2400 + 1) * 2) 0#8)
  have hr := fun bytes e rest => hp.read addr (toBe 0x2400#16) (List.replicate ((0x273F - 0x2400 + 1) * 2) 0#8) bytes e rest
  have hn := new_step fromData toCalib (recorded b) k addr s
  have hn' := fun log => new_step fromData toCalib pb k addr (some log)
  generalize List.replicate ((0x273F - 0x2400 + 1) * 2) 0#8 = zeros at hlen hq hr hn hn'
  generalize b.writeRead s.1 addr (toBe 0x2400#16) zeros = q at hlen hq
  obtain ⟨s1, bytes, e⟩ := q
  simp only at hlen
  rw [hn _ _ _ hq]
  cases e with
  | some e =>
    refine ⟨[Txn.read addr (toBe 0x2400#16) zeros.length (.error e)], rfl, fun rest => ?_⟩
    rw [List.cons_append, List.nil_append, hn' _ _ _ _ (hr bytes (some e) rest hlen)]
  | none =>
    have hr1 := fun rest => hn' _ _ _ _ (hr bytes none rest hlen)
    simp only at hr1 ⊢
    cases hf : fromData bytes with
    | ok c =>
      simp only
      rw [hf] at hr1
      simp only at hr1
      unfold Driver.newWithCalibration at hr1 ⊢
      rw [readControl_eq, regRead_recorded]
      generalize regRead b s1 addr 0x800D#16 = q
      obtain ⟨s2, e | w⟩ := q
      · refine ⟨_, app2 .., fun rest => ?_⟩
        rw [List.cons_append, List.cons_append, List.nil_append, hr1]
        rw [readControl_eq, hp.regRead]
      · simp only [resolution_val, accessPattern_val]
        refine ⟨_, app2 .., fun rest => ?_⟩
        rw [List.cons_append, List.cons_append, List.nil_append, hr1]
        rw [readControl_eq, hp.regRead]
        simp only [resolution_val, accessPattern_val]
        rfl
    | err e =>
      rw [hf] at hr1
      refine ⟨[Txn.read addr (toBe 0x2400#16) zeros.length (.ok bytes)], rfl, fun rest => ?_⟩
      rw [List.cons_append, List.nil_append, hr1]
    | panic =>
      rw [hf] at hr1
      refine ⟨[Txn.read addr (toBe 0x2400#16) zeros.length (.ok bytes)], rfl, fun rest => ?_⟩
      rw [List.cons_append, List.nil_append, hr1]

/-- The destinations. -/
theorem playback_destination (hs : Supported ⟨m, n, recorded b⟩ d) (op : Op F) :
    ∃ ts, (op.exec ⟨m, n, recorded b⟩ d).1.bus.2 = d.bus.2 ++ ts ∧ ∀ rest buf, buf.length = d.pixelBuf.length →
      destinationAfter ⟨m, n, pb⟩ op (onPlayback d (ts ++ rest) buf) = destinationAfter ⟨m, n, recorded b⟩ op d := by
  have key : ∀ {α : Type} {r : Driver.ImageResult F (σ × List (Txn ER EW)) ER EW α}
      {call : Driver F (Option (List (Txn ER EW))) → Driver.ImageResult F (Option (List (Txn ER EW))) ER EW α},
      PlaysBack d r call → ∃ ts, (discardImage r).1.bus.2 = d.bus.2 ++ ts ∧ ∀ rest buf, buf.length = d.pixelBuf.length →
        (call (onPlayback d (ts ++ rest) buf)).2.1 = r.2.1 := by
    intro α r call h
    obtain ⟨ts, ht, hr⟩ := h
    obtain ⟨r1, r2, r3⟩ := r
    refine ⟨ts, by cases r3 <;> exact ht, fun rest buf hb => ?_⟩
    obtain ⟨buf', h1, h2⟩ := hr rest buf hb
    rw [h2]
  have other : (∀ (env : Env (Option (List (Txn ER EW))) ER EW) e, destinationAfter env op e = []) →
      destinationAfter ⟨m, n, recorded b⟩ op d = [] → _ := fun h1 h2 =>
    let ⟨ts, ht, _⟩ := playback_exec hp d hs op
    (⟨ts, ht, fun _ _ _ => (h1 _ _).trans h2.symm⟩ : ∃ ts, (op.exec ⟨m, n, recorded b⟩ d).1.bus.2 = d.bus.2 ++ ts ∧
      ∀ (rest : List (Txn ER EW)) (buf : List Byte), buf.length = d.pixelBuf.length →
      destinationAfter ⟨m, n, pb⟩ op (onPlayback d (ts ++ rest) buf) = destinationAfter ⟨m, n, recorded b⟩ op d)
  cases op with
  | generateRawImageSubpageTo sp dest => exact key (playback_raw hp d hs sp dest)
  | generateImageSubpageTo sp dest => exact key (playback_subpage hp d hs sp dest)
  | generateImageTo dest => exact key (playback_imageTo hp d hs dest)
  | generateImageIfReady dest => exact key (playback_ifReady hp d hs dest)
  | _ => exact other (fun _ _ => rfl) rfl

/-- Any history of calls. -/
theorem playback_history (hs : Supported ⟨m, n, recorded b⟩ d) (ops : List (Op F)) :
    ∃ ts, (runOps ⟨m, n, recorded b⟩ ops d).bus.2 = d.bus.2 ++ ts ∧ ∀ rest buf, buf.length = d.pixelBuf.length →
      images ⟨m, n, pb⟩ ops (onPlayback d (ts ++ rest) buf) = images ⟨m, n, recorded b⟩ ops d ∧
      ∃ buf', runOps ⟨m, n, pb⟩ ops (onPlayback d (ts ++ rest) buf) = onPlayback (runOps ⟨m, n, recorded b⟩ ops d) rest buf' := by
  induction ops generalizing d with
  | nil => exact ⟨[], (List.append_nil _).symm, fun rest buf hb => ⟨rfl, buf, rfl⟩⟩
  | cons op ops ih =>
    obtain ⟨t1, h1, h2⟩ := playback_exec hp d hs op
    obtain ⟨t1', h1', h2'⟩ := playback_destination hp d hs op
    have : t1' = t1 := List.append_cancel_left (h1'.symm.trans h1)
    subst this
    obtain ⟨t2, h3, h4⟩ := ih (op.exec ⟨m, n, recorded b⟩ d).1 (exec_supported hs op).1
    refine ⟨t1' ++ t2, ?_, fun rest buf hb => ?_⟩
    · rw [← List.append_assoc, ← h1]; exact h3
    · rw [List.append_assoc]
      obtain ⟨buf', h5, h6⟩ := h2 (t2 ++ rest) buf hb
      obtain ⟨h7, buf2, h8⟩ := h4 rest buf' (by
        have h := exec_supported hs op
        rw [h5, hs.buffer, h.1.buffer, h.2.2])
      constructor
      · unfold images
        rw [h2' _ _ hb, h6, h7]
      · refine ⟨buf2, ?_⟩
        unfold runOps
        rw [List.foldl_cons, List.foldl_cons, h6]
        exact h8

end Mlx.Proofs
