import Verif.Spec.Heard
import Verif.Props.Locality
import Verif.Props.History
import Verif.Props.Sync
import Verif.Proofs.Mock
/-
What the log of a bus says about the memory of a camera.
-/
set_option linter.unusedSectionVars false
set_option autoImplicit false
namespace Mlx.Proofs
open Mlx Mlx.Spec Mlx.Props F32Ops
variable {F σ ER EW : Type} [F32Ops F]

theorem lastWord_append (addr : Byte) (a : Word) (log ts : List (Txn ER EW)) :
    lastWord addr a (log ++ ts) = (lastWord addr a ts).or (lastWord addr a log) := by
  unfold lastWord
  rw [List.reverse_append, List.findSome?_append]

theorem lastWord_quiet {addr : Byte} {a : Word} {log ts : List (Txn ER EW)} (h : ∀ t ∈ ts, t.says addr a = none) :
    lastWord addr a (log ++ ts) = lastWord addr a log := by
  rw [lastWord_append]
  have : lastWord addr a ts = none := by
    unfold lastWord
    rw [List.findSome?_eq_none_iff]
    intro t ht
    exact h t (List.mem_reverse.1 ht)
  rw [this, Option.none_or]

theorem lastWord_snoc (addr : Byte) (a : Word) (log : List (Txn ER EW)) (t : Txn ER EW) :
    lastWord addr a (log ++ [t]) = (t.says addr a).or (lastWord addr a log) := by
  rw [lastWord_append]
  congr 1
  unfold lastWord
  rw [List.reverse_singleton, List.findSome?_singleton]

theorem lastWord_spoken {addr : Byte} {a w : Word} {log : List (Txn ER EW)} {t : Txn ER EW} (h : t.says addr a = some w) :
    lastWord addr a (log ++ [t]) = some w := by
  rw [lastWord_snoc, h, Option.some_or]

theorem says_read (addr : Byte) (a base : Word) (n : Nat) (bytes : List Byte) :
    (Txn.read addr (toBe base) n (.ok bytes) : Txn ER EW).says addr a =
      if 2 * (a - base).toNat + 1 < n then
        match bytes[2 * (a - base).toNat]?, bytes[2 * (a - base).toNat + 1]? with
        | some x, some y => some (be16 x y)
        | _, _ => none
      else none := by
  unfold toBe Txn.says
  simp only [be16_toBe, true_and]
  rfl

theorem says_error (addr : Byte) (a base : Word) (n : Nat) (e : ER) :
    (Txn.read addr (toBe base) n (.error e) : Txn ER EW).says addr a = none := rfl

theorem says_readReg (addr : Byte) (a reg w : Word) :
    (Txn.readReg addr reg (.ok w) : Txn ER EW).says addr a = if a = reg then some w else none := by
  unfold Txn.readReg
  rw [says_read]
  by_cases h : a = reg
  · subst h
    rw [if_pos (by simp), if_pos rfl]
    simp only [BitVec.sub_self, BitVec.toNat_zero, Nat.mul_zero, toBe, Nat.zero_add, List.getElem?_cons_zero,
      List.getElem?_cons_succ, be16_toBe]
  · rw [if_neg h, if_neg]
    intro hk
    have h0 : (a - reg).toNat = 0 := by omega
    have h1 : a - reg = 0#16 := BitVec.eq_of_toNat_eq h0
    exact h (by rw [← BitVec.sub_add_cancel a reg, h1, BitVec.zero_add])

theorem says_readReg_quiet {addr : Byte} {a reg : Word} (h : a ≠ reg) (r : Except ER Word) :
    (Txn.readReg addr reg r : Txn ER EW).says addr a = none := by
  cases r with
  | error e => rfl
  | ok w => rw [says_readReg, if_neg h]

theorem says_writeReg (addr : Byte) (a reg w : Word) (e : Option EW) :
    (Txn.writeReg addr reg w e : Txn ER EW).says addr a = if reg = a then some w else none := by
  unfold Txn.writeReg toBe Txn.says
  simp only [List.cons_append, List.nil_append, be16_toBe, true_and]

theorem says_writeReg_quiet {addr : Byte} {a reg : Word} (h : a ≠ reg) (w : Word) (e : Option EW) :
    (Txn.writeReg addr reg w e : Txn ER EW).says addr a = none := by
  rw [says_writeReg, if_neg fun hc => h hc.symm]

/-- Reading a frame says nothing about what is not in the RAM. -/
theorem ramRead_quiet {addr : Byte} {t : Txn ER EW} (h : RamRead addr t) {a : Word} (ha : 0x0800 ≤ a.toNat) :
    t.says addr a = none := by
  cases t with
  | write => exact nomatch h.1
  | read device sent n res =>
    cases res with
    | error e => rcases sent with _ | ⟨_, _ | ⟨_, _ | _⟩⟩ <;> rfl
    | ok bytes =>
      rcases sent with _ | ⟨hi, _ | ⟨lo, _ | _⟩⟩
      · rfl
      · rfl
      · unfold Txn.says
        simp only
        rw [if_neg]
        rintro ⟨_, hk⟩
        have hs : [hi, lo] = toBe (be16 hi lo) := (toBe_be16 ..).symm
        have h1 := h.2.2 (be16 hi lo)
        have h2 := h.2.2 a ha
        by_cases hb : 0x0800 ≤ (be16 hi lo).toNat
        · exact h1 hb ⟨_, hs, Nat.le_refl _, by omega⟩
        · refine h2 ⟨_, hs, by omega, ?_⟩
          rw [BitVec.toNat_sub] at hk
          have := a.isLt
          have := (be16 hi lo).isLt
          omega
      · rfl

/-! ### Frames -/

/-- Two reads of a plan have no address in common. -/
def ApartReads (p q : Word × Nat) : Prop := p.1.toNat + p.2 / 2 ≤ q.1.toNat ∨ q.1.toNat + q.2 / 2 ≤ p.1.toNat

instance (p q : Word × Nat) : Decidable (ApartReads p q) := by unfold ApartReads; infer_instance

theorem memBytes_word (V : Word → Word) (a : Word) : memBytes V a 2 = toBe (V a) := by
  unfold memBytes
  show [_, _] = _
  simp [toBe]

/-- When everything that was read is as last heard, the answers are what a memory that holds still would have given. -/
theorem follows_heard {addr : Byte} {plan : List (Word × Nat)} {ts : List (Txn ER EW)} (h : Follows addr plan ts none)
    (hd : plan.Pairwise ApartReads) (hb : ∀ p ∈ plan, p.1.toNat + p.2 / 2 ≤ 0x0800 ∧ p.2 % 2 = 0)
    (log : List (Txn ER EW)) (V : Word → Word)
    (hV : ∀ a w, a.toNat < 0x0800 → lastWord addr a (log ++ ts) = some w → V a = w) :
    ∀ base n bytes, Txn.read addr (toBe base) n (.ok bytes) ∈ ts → memBytes V base n = bytes := by
  generalize hr : (none : Option (Err ER EW)) = r at h
  induction h generalizing log with
  | done => intro _ _ _ ht; cases ht
  | failed => cases hr
  | @next a n plan ts bytes r hl hf ih =>
    have hlog : log ++ (Txn.read addr (toBe a) n (.ok bytes) :: ts) =
        (log ++ [Txn.read addr (toBe a) n (.ok bytes)]) ++ ts := by rw [List.append_assoc]; rfl
    intro base n' bytes' ht
    rcases List.mem_cons.1 ht with ht | ht
    · obtain ⟨rfl, rfl, rfl⟩ : base = a ∧ n' = n ∧ bytes' = bytes := by
        simp only [Txn.read.injEq, Except.ok.injEq, true_and] at ht
        exact ⟨toBe_inj ht.1, ht.2.1, ht.2.2⟩
      have hbn := hb _ (List.mem_cons_self ..)
      have word : ∀ k, 2 * k + 1 < n' → ∃ x y, bytes'[2 * k]? = some x ∧ bytes'[2 * k + 1]? = some y ∧
          V (base + BitVec.ofNat 16 k) = be16 x y := by
        intro k hk
        have hk16 : (BitVec.ofNat 16 k).toNat = k := by
          rw [BitVec.toNat_ofNat, Nat.mod_eq_of_lt (by simp only at hbn; omega)]
        have hsum : (base + BitVec.ofNat 16 k).toNat = base.toNat + k := by
          rw [BitVec.toNat_add, hk16, Nat.mod_eq_of_lt (by simp only at hbn; omega)]
        refine ⟨bytes'[2 * k]'(by omega), bytes'[2 * k + 1]'(by omega), List.getElem?_eq_getElem _,
          List.getElem?_eq_getElem _, ?_⟩
        refine hV _ _ (by simp only at hbn; omega) ?_
        rw [hlog, lastWord_quiet, lastWord_spoken]
        · have hsub : (base + BitVec.ofNat 16 k - base).toNat = k := by
            rw [BitVec.toNat_sub, hsum]
            have := base.isLt
            simp only at hbn
            omega
          rw [says_read, hsub, if_pos hk, List.getElem?_eq_getElem, List.getElem?_eq_getElem]
        · intro t ht
          obtain ⟨b, q, res, h1, rfl⟩ := hf.planned t ht
          cases res with
          | error e => rfl
          | ok bs =>
            rw [says_read, if_neg]
            have hap := (List.pairwise_cons.1 hd).1 (b, q) h1
            have hbq := hb (b, q) (List.mem_cons_of_mem _ h1)
            unfold ApartReads at hap
            simp only at hap hbq hbn
            rw [BitVec.toNat_sub, hsum]
            omega
      apply List.ext_getElem?
      intro i
      by_cases hi : i < n'
      · obtain ⟨x, y, hx, hy, hw⟩ := word (i / 2) (by simp only at hbn; omega)
        rw [memBytes_get V base n' i hi, hw]
        by_cases hp : i % 2 = 0
        · rw [if_pos hp, hiByte_be16, ← hx]
          congr 1
          omega
        · rw [if_neg hp, loByte_be16, ← hy]
          congr 1
          omega
      · rw [List.getElem?_eq_none (by simp [memBytes]; omega), List.getElem?_eq_none (by omega)]
    · exact ih (List.pairwise_cons.1 hd).2 (fun p hp => hb p (List.mem_cons_of_mem _ hp)) (log ++ [_])
        (by rw [← hlog]; exact hV) hr base n' bytes' ht

/-- The reads of a frame have no address in common. -/
theorem plan_apart {env : Env σ ER EW} {d : Driver F σ} (h : Supported env d) (sp : Subpage) {rs : List PixelRange}
    (hr : d.calib.cam.collectRanges env.mode sp d.accessPattern env.height = .ok rs) :
    (ramPlan d.calib.cam rs sp).Pairwise ApartReads ∧
    ∀ p ∈ ramPlan d.calib.cam rs sp, p.1.toNat + p.2 / 2 ≤ 0x0800 ∧ p.2 % 2 = 0 := by
  have key : ∀ m sp ap (rs : List PixelRange),
      (Mlx90640.cam.collectRanges m sp ap 24 = .ok rs → (ramPlan Mlx90640.cam rs sp).Pairwise ApartReads ∧
        ∀ p ∈ ramPlan Mlx90640.cam rs sp, p.1.toNat + p.2 / 2 ≤ 0x0800 ∧ p.2 % 2 = 0) ∧
      (Mlx90641.cam.collectRanges m sp ap 12 = .ok rs → (ramPlan Mlx90641.cam rs sp).Pairwise ApartReads ∧
        ∀ p ∈ ramPlan Mlx90641.cam rs sp, p.1.toNat + p.2 / 2 ≤ 0x0800 ∧ p.2 % 2 = 0) := by
    intro m sp ap rs
    have k1 : ∃ rs, Mlx90640.cam.collectRanges m sp ap 24 = .ok rs ∧ (ramPlan Mlx90640.cam rs sp).Pairwise ApartReads ∧
        ∀ p ∈ ramPlan Mlx90640.cam rs sp, p.1.toNat + p.2 / 2 ≤ 0x0800 ∧ p.2 % 2 = 0 := by
      cases m <;> cases sp <;> cases ap <;> exact ⟨_, rfl, by decide +kernel⟩
    have k2 : ∃ rs, Mlx90641.cam.collectRanges m sp ap 12 = .ok rs ∧ (ramPlan Mlx90641.cam rs sp).Pairwise ApartReads ∧
        ∀ p ∈ ramPlan Mlx90641.cam rs sp, p.1.toNat + p.2 / 2 ≤ 0x0800 ∧ p.2 % 2 = 0 := by
      cases m <;> cases sp <;> cases ap <;> exact ⟨_, rfl, by decide +kernel⟩
    refine ⟨fun h => ?_, fun h => ?_⟩
    · obtain ⟨rs', h1, h2⟩ := k1
      rw [h1] at h
      rw [← Res.ok.inj h]
      exact h2
    · obtain ⟨rs', h1, h2⟩ := k2
      rw [h1] at h
      rw [← Res.ok.inj h]
      exact h2
  rcases h.cam with hc | hc
  · have hh : env.height = 24 := by rw [h.height, hc]; rfl
    rw [hc, hh] at hr
    rw [hc]
    exact (key _ _ _ _).1 hr
  · have hh : env.height = 12 := by rw [h.height, hc]; rfl
    rw [hc, hh] at hr
    rw [hc]
    exact (key _ _ _ _).2 hr

theorem chunks_heard (V : Word → Word) (rs : List PixelRange) (chunks : List (List Byte))
    (hl : chunks.map List.length = rs.map PixelRange.length)
    (h : ∀ rc ∈ rs.zip chunks, memBytes V (BitVec.ofNat 16 rc.1.startAddress) rc.1.length = rc.2) :
    chunks = rs.map fun r => memBytes V (BitVec.ofNat 16 r.startAddress) r.length := by
  induction rs generalizing chunks with
  | nil =>
    cases chunks with
    | nil => rfl
    | cons c cs => simp at hl
  | cons r rs ih =>
    cases chunks with
    | nil => simp at hl
    | cons c cs =>
      simp only [List.map_cons, List.cons.injEq] at hl
      rw [List.map_cons, ← ih cs hl.2 fun rc hrc => h rc (List.mem_cons_of_mem _ hrc)]
      rw [h (r, c) (List.mem_cons_self ..)]

/-- The frame that was read is in the memory as heard. -/
theorem frame_heard {env : Env σ ER EW} {d : Driver F σ} (hs : Supported env d) {sp : Subpage} {rs : List PixelRange}
    (hr : d.calib.cam.collectRanges env.mode sp d.accessPattern env.height = .ok rs) {ts : List (Txn ER EW)} {px : List Byte}
    {ram : RamData} (hf : Follows d.addr (ramPlan d.calib.cam rs sp) ts none)
    (h : FrameRead d.addr d.calib.cam rs sp d.pixelBuf ts px ram) (log : List (Txn ER EW)) (V : Word → Word)
    (hV : ∀ a w, a.toNat < 0x0800 → lastWord d.addr a (log ++ ts) = some w → V a = w) :
    ram = frameReadings d.calib.cam sp V ∧ HoldsFrame d.calib.cam sp d.accessPattern V px := by
  obtain ⟨hp1, hp2⟩ := plan_apart hs sp hr
  have heard := follows_heard hf hp1 hp2 log V hV
  obtain ⟨chunks, vbe, ptat, vdd, gain, cp, h1, h2, h3, h4⟩ := h
  have word : ∀ reg w, Txn.readReg d.addr reg (.ok w) ∈ ts → V reg = w := by
    intro reg w hm
    exact toBe_inj ((memBytes_word V reg).symm.trans (heard reg 2 (toBe w) hm))
  have hch := chunks_heard V rs chunks h1 fun rc hrc => heard _ _ _ (by
    rw [h2]
    exact List.mem_append_left _ (List.mem_map.2 ⟨rc, hrc, rfl⟩))
  constructor
  · rw [h4]
    unfold frameReadings
    rw [word d.calib.cam.tAVbe vbe (by rw [h2]; simp), word d.calib.cam.tAPtat ptat (by rw [h2]; simp),
      word d.calib.cam.vddPixel vdd (by rw [h2]; simp), word d.calib.cam.gain gain (by rw [h2]; simp),
      word (d.calib.cam.compensationPixel sp) cp (by rw [h2]; simp)]
  · obtain ⟨rs', hrs, pa, hal, hpa, hcov, hat⟩ := frame_layout hs sp
    rw [hrs] at hr
    cases hr
    intro i hi hv
    exact ⟨_, hat i, ranges_pixel V rs d.pixelBuf pa hal hpa i (hcov i hi hv) px (by rw [h3, hch])⟩

/-! ### Histories -/

variable {env : Env σ ER EW} {d : Driver F (σ × List (Txn ER EW))}

/-- What a call leaves of what has been heard outside the RAM. -/
def KeepsHeard (addr : Byte) (d d' : Driver F (σ × List (Txn ER EW))) : Prop :=
  (∀ w, lastWord addr 0x800D#16 d.bus.2 = some w → Caches d w →
    ∃ w', lastWord addr 0x800D#16 d'.bus.2 = some w' ∧ Caches d' w') ∧
  ∀ a : Word, 0x0800 ≤ a.toNat → a ≠ 0x8000#16 → a ≠ 0x800D#16 → lastWord addr a d'.bus.2 = lastWord addr a d.bus.2

theorem keepsHeard_quiet {d' : Driver F (σ × List (Txn ER EW))} {ts : List (Txn ER EW)} (hb : d'.bus.2 = d.bus.2 ++ ts)
    (hq : ∀ t ∈ ts, ∀ a : Word, 0x0800 ≤ a.toNat → a ≠ 0x8000#16 → t.says d.addr a = none)
    (h1 : d'.accessPattern = d.accessPattern) (h2 : d'.resCorr = d.resCorr) (h3 : d'.calib = d.calib) :
    KeepsHeard d.addr d d' := by
  refine ⟨fun w hw hc => ⟨w, ?_, ?_⟩, fun a ha hne _ => ?_⟩
  · rw [hb, lastWord_quiet fun t ht => hq t ht _ (by decide) (by decide)]
    exact hw
  · unfold Caches at hc ⊢
    rw [h1, h2, h3]
    exact hc
  · rw [hb, lastWord_quiet fun t ht => hq t ht _ ha hne]

theorem quiet_status (addr : Byte) (r : Except ER Word) (a : Word) (h : a ≠ 0x8000#16) :
    (Txn.readReg addr 0x8000#16 r : Txn ER EW).says addr a = none := says_readReg_quiet h r

/-- Every call keeps what has been heard, or hears it anew. -/
theorem call_heard (h : Supported (recordedEnv env) d) (op : Op F) :
    KeepsHeard d.addr d (op.exec (recordedEnv env) d).1 := by
  have hb : (recordedEnv env).bus = recorded env.bus := rfl
  have himg : ∀ sp dest (conv : Driver F (σ × List (Txn ER EW)) → List Byte → RamData → Res (Err ER EW) (F × List F)),
      (∀ d px ram e, conv d px ram ≠ .err e) →
      (∀ d : Driver F (σ × List (Txn ER EW)), ∀ bus px px' ram,
        conv { d with bus := bus, pixelBuf := px' } px ram = conv d px ram) →
      ∀ d0 : Driver F (σ × List (Txn ER EW)), Supported (recordedEnv env) d0 → ∃ ts,
        (imageWith (recordedEnv env) sp dest d0 conv).1.bus.2 = d0.bus.2 ++ ts ∧ ∀ t ∈ ts, RamRead d0.addr t := by
    intro sp dest conv h1 h2 d0 h0
    obtain ⟨rs, ts, s', px, _, hq, hcase⟩ := imageWith_cases env d0 sp dest h0 conv h1 (h2 d0)
    rcases hcase with ⟨e, _, he⟩ | ⟨ram, _, _, ⟨tA, dest', _, he⟩ | ⟨_, he⟩⟩ <;>
    · rw [he]; exact ⟨ts, rfl, hq⟩
  have himg' : ∀ sp dest (conv : Driver F (σ × List (Txn ER EW)) → List Byte → RamData → Res (Err ER EW) (F × List F)),
      (∀ d px ram e, conv d px ram ≠ .err e) →
      (∀ d : Driver F (σ × List (Txn ER EW)), ∀ bus px px' ram,
        conv { d with bus := bus, pixelBuf := px' } px ram = conv d px ram) →
      KeepsHeard d.addr d (imageWith (recordedEnv env) sp dest d conv).1 := by
    intro sp dest conv h1 h2
    obtain ⟨ts, h3, h4⟩ := himg sp dest conv h1 h2 d h
    obtain ⟨hk, _, hap, hrc⟩ := imageWith_keeps (recordedEnv env) sp dest d conv
    exact keepsHeard_quiet h3 (fun t ht a ha _ => ramRead_quiet (h4 t ht) ha) hap hrc hk.calib
  refine op_cases (recordedEnv env) (P := fun op => KeepsHeard d.addr d (op.exec (recordedEnv env) d).1)
    ?_ ?_ ?_ ?_ ?_ ?_ ?_ ?_ ?_ ?_ ?_ ?_ ?_ op
  · intro op f hf he _ _ _ _
    rw [he]
    obtain ⟨s', res, d', r, h1, h2, h3⟩ := C40_control_getters env d f hf
    unfold discard
    rw [h1]
    cases res with
    | error e =>
      obtain ⟨_, h4⟩ := h3
      refine ⟨fun w hw hc => ⟨w, ?_, ?_⟩, fun a ha hne hne' => ?_⟩
      · rw [h2]
        show lastWord _ _ (_ ++ _) = _
        rw [lastWord_quiet fun t ht => by rw [List.mem_singleton] at ht; subst ht; rfl]
        exact hw
      · rw [h4]; exact hc
      · rw [h2]
        show lastWord _ _ (_ ++ _) = _
        rw [lastWord_quiet fun t ht => by rw [List.mem_singleton] at ht; subst ht; rfl]
    | ok w0 =>
      obtain ⟨_, h4, _⟩ := h3
      refine ⟨fun w hw hc => ⟨w0, ?_, h4⟩, fun a ha hne hne' => ?_⟩
      · rw [h2]
        exact lastWord_spoken (by rw [says_readReg, if_pos rfl])
      · rw [h2]
        show lastWord _ _ (_ ++ _) = _
        rw [lastWord_quiet fun t ht => by rw [List.mem_singleton] at ht; subst ht; exact says_readReg_quiet hne' _]
  · intro op f hf v he _ _ _ _
    rw [he]
    unfold discard
    obtain ⟨d', r, h1, hcase, h5⟩ := C41_control_setters env d f hf v
    rw [h1]
    rcases hcase with ⟨e, h2, _, h4⟩ | ⟨w0, h2, _, _, h4⟩ | ⟨w0, w', we, h2, _, _, _, h4⟩
    · refine ⟨fun w hw hc => ⟨w, ?_, ?_⟩, fun a ha hne hne' => ?_⟩
      · rw [h2, lastWord_quiet fun t ht => by rw [List.mem_singleton] at ht; subst ht; rfl]
        exact hw
      · rw [h4]; exact hc
      · rw [h2, lastWord_quiet fun t ht => by rw [List.mem_singleton] at ht; subst ht; rfl]
    · refine ⟨fun w hw hc => ⟨w0, ?_, h4⟩, fun a ha hne hne' => ?_⟩
      · rw [h2]
        exact lastWord_spoken (by rw [says_readReg, if_pos rfl])
      · rw [h2, lastWord_quiet fun t ht => by rw [List.mem_singleton] at ht; subst ht; exact says_readReg_quiet hne' _]
    · refine ⟨fun w hw hc => ⟨w', ?_, h4⟩, fun a ha hne hne' => ?_⟩
      · rw [h2, show ∀ x y : Txn ER EW, d.bus.2 ++ [x, y] = (d.bus.2 ++ [x]) ++ [y] from fun x y => by simp]
        exact lastWord_spoken (by rw [says_writeReg, if_pos rfl])
      · rw [h2, lastWord_quiet]
        intro t ht
        simp only [List.mem_cons, List.not_mem_nil, or_false] at ht
        rcases ht with rfl | rfl
        · exact says_readReg_quiet hne' _
        · exact says_writeReg_quiet hne' _ _
  · intro op he _ _ _ _
    rw [he]
    simp only [hb, regRead_recorded]
    refine keepsHeard_quiet rfl ?_ rfl rfl rfl
    intro t ht a _ ha
    rw [List.mem_singleton] at ht
    subst ht
    exact says_readReg_quiet ha _
  · intro v
    show KeepsHeard d.addr d (Driver.setOverwriteEnabled (recordedEnv env) v d).1
    obtain ⟨d', r, h1, hcase, h5⟩ := C41_overwrite_setter env d v
    rw [h1]
    have e1 : d'.accessPattern = d.accessPattern := by rw [h5]
    have e2 : d'.resCorr = d.resCorr := by rw [h5]
    have e3 : d'.calib = d.calib := by rw [h5]
    rcases hcase with ⟨e, h2, _⟩ | ⟨w, h2, _⟩ | ⟨w, w', we, h2, _⟩
    all_goals
      refine keepsHeard_quiet h2 ?_ e1 e2 e3
      intro t ht a _ ha
      simp only [List.mem_cons, List.not_mem_nil, or_false] at ht
    · subst ht; exact says_readReg_quiet ha _
    · subst ht; exact says_readReg_quiet ha _
    · rcases ht with rfl | rfl
      · exact says_readReg_quiet ha _
      · exact says_writeReg_quiet ha _ _
  · show KeepsHeard d.addr d (Driver.resetDataAvailable (recordedEnv env) d).1
    obtain ⟨d', r, h1, hcase, h5⟩ := (C42_data_available_flag env d).2
    rw [h1]
    have e1 : d'.accessPattern = d.accessPattern := by rw [h5]
    have e2 : d'.resCorr = d.resCorr := by rw [h5]
    have e3 : d'.calib = d.calib := by rw [h5]
    rcases hcase with ⟨e, h2, _⟩ | ⟨w, w', we, h2, _⟩
    all_goals
      refine keepsHeard_quiet h2 ?_ e1 e2 e3
      intro t ht a _ ha
      simp only [List.mem_cons, List.not_mem_nil, or_false] at ht
    · subst ht; exact says_readReg_quiet ha _
    · rcases ht with rfl | rfl
      · exact says_readReg_quiet ha _
      · exact says_writeReg_quiet ha _ _
  · intro v; exact keepsHeard_quiet (ts := []) (List.append_nil _).symm (fun t ht => nomatch ht) rfl rfl rfl
  · exact keepsHeard_quiet (ts := []) (List.append_nil _).symm (fun t ht => nomatch ht) rfl rfl rfl
  · intro v; exact keepsHeard_quiet (ts := []) (List.append_nil _).symm (fun t ht => nomatch ht) rfl rfl rfl
  · intro sp dest
    exact himg' sp dest (fun d => toRawImage (recordedEnv env).mode d sp dest)
      (fun d px ram e => toRawImage_no_err _ _ _ _ _ _ _) (fun _ _ _ _ _ => rfl)
  · intro sp dest
    exact himg' sp dest (fun d => toTemperatures (recordedEnv env).mode d sp dest)
      (fun d px ram e => toTemperatures_no_err _ _ _ _ _ _ _) (fun _ _ _ _ _ => rfl)
  · intro dest
    show KeepsHeard d.addr d (Driver.generateImageTo (recordedEnv env) dest d).1
    rw [generateImageTo_eq, hb, regRead_recorded]
    generalize regRead env.bus d.bus.1 d.addr 0x8000#16 = q
    obtain ⟨s1, e | w⟩ := q
    · refine keepsHeard_quiet rfl ?_ rfl rfl rfl
      intro t ht a _ ha
      rw [List.mem_singleton] at ht
      subst ht
      exact says_readReg_quiet ha _
    · simp only
      rw [imageSubpage_eq]
      obtain ⟨ts, h3, h4⟩ := himg (if w.getLsbD 0 then .one else .zero) dest
        (fun d => toTemperatures (recordedEnv env).mode d (if w.getLsbD 0 then .one else .zero) dest)
        (fun d px ram e => toTemperatures_no_err _ _ _ _ _ _ _) (fun _ _ _ _ _ => rfl)
        { d with bus := (s1, d.bus.2 ++ [Txn.readReg d.addr 0x8000#16 (.ok w)]) } ⟨h.1, h.2, h.3⟩
      obtain ⟨hk, _, hap, hrc⟩ := imageWith_keeps (recordedEnv env) (if w.getLsbD 0 then .one else .zero) dest
        { d with bus := (s1, d.bus.2 ++ [Txn.readReg d.addr 0x8000#16 (.ok w)]) }
        (fun d => toTemperatures (recordedEnv env).mode d (if w.getLsbD 0 then .one else .zero) dest)
      refine keepsHeard_quiet (ts := Txn.readReg d.addr 0x8000#16 (.ok w) :: ts) ?_ ?_ hap hrc hk.calib
      · rw [h3, List.append_assoc]; rfl
      · intro t ht a ha hne
        rcases List.mem_cons.1 ht with rfl | ht
        · exact says_readReg_quiet hne _
        · exact ramRead_quiet (h4 t ht) ha
  · intro dest
    show KeepsHeard d.addr d (Driver.generateImageIfReady (recordedEnv env) dest d).1
    obtain ⟨e, h1, _, _, h5⟩ | ⟨w, _, h1, _, _, h5⟩ | ⟨w, ts, e, _, h1, _, h3, _, _, h5⟩ |
      ⟨w, ts, _, h1, _, h3, _, _, h5⟩ | ⟨w, w', ts, we, _, h1, _, h3, h4, ⟨rs, px, ram, tA, _, _, _, _, h5⟩, _⟩ :=
      ifReady_cases env d dest h _ rfl
    all_goals
      refine keepsHeard_quiet h1 ?_ (by rw [h5]) (by rw [h5]) (by rw [h5])
      intro t ht a ha hne
      simp only [List.cons_append, List.mem_cons, List.mem_append, List.not_mem_nil, or_false] at ht
    · subst ht; exact says_readReg_quiet hne _
    · subst ht; exact says_readReg_quiet hne _
    · rcases ht with rfl | ht
      · exact says_readReg_quiet hne _
      · exact ramRead_quiet (h3 t ht) ha
    · rcases ht with rfl | ht
      · exact says_readReg_quiet hne _
      · exact ramRead_quiet (h3 t ht) ha
    · rcases ht with rfl | ht | rfl
      · exact says_readReg_quiet hne _
      · exact ramRead_quiet (h3 t ht) ha
      · exact says_writeReg_quiet hne _ _
  · intro fuel
    show KeepsHeard d.addr d (Driver.synchronize (recordedEnv env) fuel d).1
    obtain ⟨s', ts, r, h1, hcase⟩ := C48_synchronize_waits_for_fresh_data env fuel d
    rw [h1]
    refine keepsHeard_quiet (ts := ts) rfl ?_ rfl rfl rfl
    intro t ht a _ ha
    rcases hcase with ⟨e, h2, _⟩ | ⟨w, w', we, polls, h2, h3, h4⟩
    · rw [h2, List.mem_singleton] at ht
      subst ht
      exact says_readReg_quiet ha _
    · rw [h2] at ht
      have hpolls : ∀ t ∈ polls, t.says d.addr a = none := by
        intro t ht
        rcases h4 with ⟨e, _, h5, _⟩ | ⟨_, stale, _, h6⟩
        · rw [h5] at ht; cases ht
        · have hmap : ∀ t ∈ stale.map (fun w => Txn.readReg (ER := ER) (EW := EW) d.addr 0x8000#16 (.ok w)),
              t.says d.addr a = none := by
            intro t ht
            obtain ⟨w, _, rfl⟩ := List.mem_map.1 ht
            exact says_readReg_quiet ha _
          rcases h6 with ⟨w1, _, _, _, h7⟩ | ⟨e, _, _, h7⟩ | ⟨_, _, h7⟩
          · rw [h7] at ht
            rcases List.mem_append.1 ht with ht | ht
            · exact hmap t ht
            · rw [List.mem_singleton] at ht; subst ht; exact says_readReg_quiet ha _
          · rw [h7] at ht
            rcases List.mem_append.1 ht with ht | ht
            · exact hmap t ht
            · rw [List.mem_singleton] at ht; subst ht; rfl
          · rw [h7] at ht; exact hmap t ht
      rcases List.mem_cons.1 ht with rfl | ht
      · exact says_readReg_quiet ha _
      · rcases List.mem_cons.1 ht with rfl | ht
        · exact says_writeReg_quiet ha _ _
        · exact hpolls t ht

theorem history_heard (h : Supported (recordedEnv env) d) (ops : List (Op F)) :
    KeepsHeard d.addr d (runOps (recordedEnv env) ops d) := by
  induction ops generalizing d with
  | nil => exact ⟨fun w h1 h2 => ⟨w, h1, h2⟩, fun _ _ _ _ => rfl⟩
  | cons op ops ih =>
    have h1 := call_heard h op
    obtain ⟨h2, h3, _⟩ := exec_supported h op
    have h4 := ih h2
    rw [h3] at h4
    refine ⟨fun w hw hc => ?_, fun a ha hb hc => (h4.2 a ha hb hc).trans (h1.2 a ha hb hc)⟩
    obtain ⟨w', hw', hc'⟩ := h1.1 w hw hc
    exact h4.1 w' hw' hc'

end Mlx.Proofs
