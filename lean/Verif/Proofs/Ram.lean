import Verif.Proofs.Driver
import Verif.Spec.Ram
import Verif.Props.Camera
/-
Reading a frame out of RAM: traces, buffer contents.
-/
set_option linter.unusedSectionVars false
set_option autoImplicit false
namespace Mlx.Proofs
open Mlx Mlx.Spec F32Ops
variable {F σ ER EW : Type} [F32Ops F]

theorem _root_.Mlx.Spec.Follows.append_failed {addr : Byte} {p q : List (Word × Nat)} {ts : List (Txn ER EW)} {e : Err ER EW}
    (h : Follows addr p ts (some e)) : Follows addr (p ++ q) ts (some e) := by
  generalize hr : some e = r at h
  induction h with
  | done => cases hr
  | next hl _ ih => exact .next hl (ih hr)
  | failed => cases hr; exact .failed

theorem _root_.Mlx.Spec.Follows.append_ok {addr : Byte} {p q : List (Word × Nat)} {ts ts' : List (Txn ER EW)}
    {r : Option (Err ER EW)} (h : Follows addr p ts none) (h' : Follows addr q ts' r) :
    Follows addr (p ++ q) (ts ++ ts') r := by
  generalize hr : (none : Option (Err ER EW)) = r0 at h
  induction h with
  | done => exact h'
  | next hl _ ih => exact .next hl (ih hr)
  | failed => cases hr

theorem _root_.Mlx.Spec.Follows.reads {addr : Byte} {p : List (Word × Nat)} {ts : List (Txn ER EW)}
    {r : Option (Err ER EW)} (h : Follows addr p ts r) : ∀ t ∈ ts, t.isWrite = false ∧ t.addr = addr := by
  induction h with
  | done => intro t ht; cases ht
  | next hl _ ih =>
    intro t ht
    rcases List.mem_cons.1 ht with rfl | ht
    · exact ⟨rfl, rfl⟩
    · exact ih t ht
  | failed =>
    intro t ht
    rw [List.mem_singleton] at ht
    subst ht
    exact ⟨rfl, rfl⟩

/-- The successful transactions of the ranges. -/
def rangeTxns (addr : Byte) (rs : List PixelRange) (chunks : List (List Byte)) : List (Txn ER EW) :=
  (rs.zip chunks).map (fun rc => .read addr (toBe (BitVec.ofNat 16 rc.1.startAddress)) rc.1.length (.ok rc.2))

/-- The plan of the ranges. -/
def rangePlan (rs : List PixelRange) : List (Word × Nat) :=
  rs.map (fun r => (BitVec.ofNat 16 r.startAddress, r.length))

theorem rangeTxns_follow (addr : Byte) (rs : List PixelRange) (chunks : List (List Byte))
    (h : chunks.map List.length = rs.map PixelRange.length) :
    Follows (ER := ER) (EW := EW) addr (rangePlan rs) (rangeTxns addr rs chunks) none := by
  induction rs generalizing chunks with
  | nil => cases chunks <;> exact .done
  | cons r rs ih =>
    cases chunks with
    | nil => simp at h
    | cons c chunks =>
      simp only [List.map_cons, List.cons.injEq] at h
      exact .next h.1 (ih chunks h.2)

theorem splice_length (buf : List Byte) (off : Nat) (chunk : List Byte)
    (h : off + chunk.length ≤ buf.length) : (splice buf off chunk).length = buf.length := by
  unfold splice
  simp only [List.length_append, List.length_take, List.length_drop]
  omega

theorem readRanges_spec (b : Bus σ ER EW) (addr : Byte) (rs : List PixelRange) (s : σ)
    (log : List (Txn ER EW)) (buf : List Byte) (hf : ∀ r ∈ rs, r.bufferOffset + r.length ≤ buf.length) :
    ∃ s' ts buf', buf'.length = buf.length ∧
      ((∃ chunks, readRanges (recorded b) addr rs (s, log) buf = ((s', log ++ ts), buf', .ok ()) ∧
        chunks.map List.length = rs.map PixelRange.length ∧ ts = rangeTxns addr rs chunks ∧
        buf' = spliceAll buf rs chunks) ∨
      (∃ e, readRanges (recorded b) addr rs (s, log) buf = ((s', log ++ ts), buf', .err e) ∧
        Follows addr (rangePlan rs) ts (some e))) := by
  induction rs generalizing s log buf with
  | nil => exact ⟨s, [], buf, rfl, Or.inl ⟨[], by simp [readRanges], rfl, rfl, rfl⟩⟩
  | cons r rs ih =>
    have hfit := hf r (List.mem_cons_self ..)
    have hsub : ((buf.drop r.bufferOffset).take r.length).length = r.length := by
      rw [List.length_take, List.length_drop]; omega
    have hlen := b.length_eq s addr (toBe (BitVec.ofNat 16 r.startAddress))
      ((buf.drop r.bufferOffset).take r.length)
    rw [hsub] at hlen
    have hstep : ∀ x, x = readRanges (recorded b) addr (r :: rs) (s, log) buf → x =
        (let q := b.writeRead s addr (toBe (BitVec.ofNat 16 r.startAddress))
            ((buf.drop r.bufferOffset).take r.length)
          match q.2.2 with
          | none => readRanges (recorded b) addr rs (q.1, log ++ [.read addr
              (toBe (BitVec.ofNat 16 r.startAddress)) r.length (.ok q.2.1)])
              (splice buf r.bufferOffset q.2.1)
          | some e => ((q.1, log ++ [.read addr (toBe (BitVec.ofNat 16 r.startAddress)) r.length (.error e)]),
              splice buf r.bufferOffset q.2.1, .err (.i2cWriteRead e))) := by
      intro x hx
      rw [hx, readRanges, if_pos hfit]
      simp only [recorded_writeRead, hsub, splice, hlen]
      generalize b.writeRead s addr (toBe (BitVec.ofNat 16 r.startAddress))
        ((buf.drop r.bufferOffset).take r.length) = q
      obtain ⟨q1, q2, q3⟩ := q
      cases q3 <;> rfl
    have hstep := hstep _ rfl
    generalize b.writeRead s addr (toBe (BitVec.ofNat 16 r.startAddress))
      ((buf.drop r.bufferOffset).take r.length) = q at hstep hlen
    obtain ⟨q1, q2, q3⟩ := q
    simp only at hstep hlen
    have hsl : (splice buf r.bufferOffset q2).length = buf.length := splice_length _ _ _ (by omega)
    cases q3 with
    | some e =>
      refine ⟨q1, _, splice buf r.bufferOffset q2, hsl, Or.inr ⟨_, hstep, ?_⟩⟩
      exact .failed
    | none =>
      simp only at hstep
      obtain ⟨s', ts, buf', hl, h⟩ := ih q1
        (log ++ [.read addr (toBe (BitVec.ofNat 16 r.startAddress)) r.length (.ok q2)])
        (splice buf r.bufferOffset q2)
        (by intro r' hr'; rw [hsl]; exact hf r' (List.mem_cons_of_mem _ hr'))
      refine ⟨s', .read addr (toBe (BitVec.ofNat 16 r.startAddress)) r.length (.ok q2) :: ts, buf',
        by omega, ?_⟩
      rcases h with ⟨chunks, h1, h2, h3, h4⟩ | ⟨e, h1, h2⟩
      · refine Or.inl ⟨q2 :: chunks, ?_, ?_, ?_, ?_⟩
        · rw [hstep, h1]; simp
        · simp [h2, hlen]
        · rw [h3]; rfl
        · rw [h4]; rfl
      · refine Or.inr ⟨e, ?_, ?_⟩
        · rw [hstep, h1]; simp
        · exact .next hlen h2

/-- The five word reads on a recorded bus. -/
theorem ramData_spec (cam : Cam) (b : Bus σ ER EW) (s : σ) (log : List (Txn ER EW)) (addr : Byte)
    (sp : Subpage) :
    ∃ s' ts,
      (∃ vbe ptat vdd gain cp : Word,
        ramDataFromI2c cam (recorded b) (s, log) addr sp = ((s', log ++ ts),
          .ok { tAVbe := vbe.toInt, tAPtat := ptat.toInt, vddPixel := vdd.toInt, gain := gain.toInt,
                compensationPixel := cp.toInt }) ∧
        ts = [.readReg addr cam.tAVbe (.ok vbe), .readReg addr cam.tAPtat (.ok ptat),
          .readReg addr cam.vddPixel (.ok vdd), .readReg addr cam.gain (.ok gain),
          .readReg addr (cam.compensationPixel sp) (.ok cp)]) ∨
      (∃ e, ramDataFromI2c cam (recorded b) (s, log) addr sp = ((s', log ++ ts), .err e) ∧
        Follows addr [(cam.tAVbe, 2), (cam.tAPtat, 2), (cam.vddPixel, 2), (cam.gain, 2),
          (cam.compensationPixel sp, 2)] ts (some e)) := by
  unfold ramDataFromI2c
  simp only [readRamValue_eq, regRead_recorded]
  rcases regRead b s addr cam.tAVbe with ⟨s1, _ | w1⟩
  · exact ⟨_, _, Or.inr ⟨_, rfl, .failed⟩⟩
  simp only
  rcases regRead b s1 addr cam.tAPtat with ⟨s2, _ | w2⟩
  · exact ⟨s2, _, Or.inr ⟨_, by simp only [List.append_assoc]; rfl, .next rfl .failed⟩⟩
  simp only
  rcases regRead b s2 addr cam.vddPixel with ⟨s3, _ | w3⟩
  · exact ⟨s3, _, Or.inr ⟨_, by simp only [List.append_assoc]; rfl, .next rfl (.next rfl .failed)⟩⟩
  simp only
  rcases regRead b s3 addr cam.gain with ⟨s4, _ | w4⟩
  · exact ⟨s4, _, Or.inr ⟨_, by simp only [List.append_assoc]; rfl, .next rfl (.next rfl (.next rfl .failed))⟩⟩
  simp only
  rcases regRead b s4 addr (cam.compensationPixel sp) with ⟨s5, _ | w5⟩
  · exact ⟨s5, _, Or.inr ⟨_, by simp only [List.append_assoc]; rfl,
      .next rfl (.next rfl (.next rfl (.next rfl .failed)))⟩⟩
  exact ⟨s5, _, Or.inl ⟨w1, w2, w3, w4, w5, by simp only [List.append_assoc]; rfl, rfl⟩⟩

/-- `read_ram` on a recorded bus, for ranges that fit the buffer. -/
theorem readRam_spec (m : Mode) (cam : Cam) (height : Nat) (b : Bus σ ER EW) (s : σ) (log : List (Txn ER EW))
    (addr : Byte) (a : AccessPattern) (sp : Subpage) (buf : List Byte) (rs : List PixelRange)
    (hrs : cam.collectRanges m sp a height = .ok rs)
    (hf : ∀ r ∈ rs, r.bufferOffset + r.length ≤ buf.length) :
    ∃ s' ts buf', buf'.length = buf.length ∧
      ((∃ ram, readRam m cam height (recorded b) (s, log) addr a sp buf = ((s', log ++ ts), buf', .ok ram) ∧
        Follows addr (ramPlan cam rs sp) ts none ∧ FrameRead addr cam rs sp buf ts buf' ram) ∨
      (∃ e, readRam m cam height (recorded b) (s, log) addr a sp buf = ((s', log ++ ts), buf', .err e) ∧
        Follows addr (ramPlan cam rs sp) ts (some e))) := by
  unfold readRam
  rw [hrs]
  simp only
  obtain ⟨s1, ts1, buf1, hl, ⟨chunks, h1, h2, h3, h4⟩ | ⟨e, h1, h2⟩⟩ := readRanges_spec b addr rs s log buf hf
  · rw [h1]
    simp only
    obtain ⟨s2, ts2, ⟨vbe, ptat, vdd, gain, cp, g1, g2⟩ | ⟨e, g1, g2⟩⟩ :=
      ramData_spec cam b s1 (log ++ ts1) addr sp
    · rw [g1]
      refine ⟨s2, ts1 ++ ts2, buf1, hl, Or.inl ⟨_, by simp only [List.append_assoc]; rfl, ?_, ?_⟩⟩
      · rw [h3, g2]
        refine (rangeTxns_follow addr rs chunks h2).append_ok ?_
        exact .next rfl (.next rfl (.next rfl (.next rfl (.next rfl .done))))
      · exact ⟨chunks, vbe, ptat, vdd, gain, cp, h2, by rw [h3, g2]; rfl, h4, rfl⟩
    · rw [g1]
      refine ⟨s2, ts1 ++ ts2, buf1, hl, Or.inr ⟨e, by simp only [List.append_assoc], ?_⟩⟩
      rw [h3]
      exact (rangeTxns_follow addr rs chunks h2).append_ok g2
  · rw [h1]
    exact ⟨s1, ts1, buf1, hl, Or.inr ⟨e, rfl, h2.append_failed⟩⟩

/-- For any camera type at all, `read_ram` only performs reads of the given address. -/
theorem readRanges_reads (b : Bus σ ER EW) (addr : Byte) (rs : List PixelRange)
    (s : σ × List (Txn ER EW)) (buf : List Byte) :
    ∃ ts, (readRanges (recorded b) addr rs s buf).1.2 = s.2 ++ ts ∧
      ∀ t ∈ ts, t.isWrite = false ∧ t.addr = addr := by
  induction rs generalizing s buf with
  | nil => exact ⟨[], by simp [readRanges], by simp⟩
  | cons r rs ih =>
    unfold readRanges
    split
    · simp only [recorded_writeRead]
      rcases b.writeRead s.1 addr (toBe (BitVec.ofNat 16 r.startAddress))
        ((buf.drop r.bufferOffset).take r.length) with ⟨q1, q2, _ | e⟩
      · simp only
        obtain ⟨ts, h1, h2⟩ := ih (q1, s.2 ++ [.read addr (toBe (BitVec.ofNat 16 r.startAddress))
          ((buf.drop r.bufferOffset).take r.length).length (.ok q2)])
          (buf.take r.bufferOffset ++ q2 ++ buf.drop (r.bufferOffset + r.length))
        refine ⟨_, by rw [h1]; simp only [List.append_assoc]; rfl, ?_⟩
        intro t ht
        rcases List.mem_append.1 ht with ht | ht
        · rw [List.mem_singleton] at ht; subst ht; exact ⟨rfl, rfl⟩
        · exact h2 t ht
      · exact ⟨_, rfl, by intro t ht; rw [List.mem_singleton] at ht; subst ht; exact ⟨rfl, rfl⟩⟩
    · exact ⟨[], by simp, by simp⟩

theorem readRam_reads (m : Mode) (cam : Cam) (height : Nat) (b : Bus σ ER EW) (s : σ × List (Txn ER EW))
    (addr : Byte) (a : AccessPattern) (sp : Subpage) (buf : List Byte) :
    ∃ ts, (readRam m cam height (recorded b) s addr a sp buf).1.2 = s.2 ++ ts ∧
      ∀ t ∈ ts, t.isWrite = false ∧ t.addr = addr := by
  unfold readRam
  split
  · exact ⟨[], by simp, by simp⟩
  · rename_i e _; exact nomatch e
  · rename_i rs _
    obtain ⟨ts, h1, h2⟩ := readRanges_reads b addr rs s buf
    rcases hr : readRanges (recorded b) addr rs s buf with ⟨s1, buf1, r1⟩
    rw [hr] at h1
    cases r1 with
    | err e => exact ⟨ts, h1, h2⟩
    | panic => exact ⟨ts, h1, h2⟩
    | ok u =>
      simp only
      simp only at h1
      obtain ⟨s2, ts2, ⟨_, _, _, _, _, g1, g2⟩ | ⟨e, g1, g2⟩⟩ := ramData_spec cam b s1.1 s1.2 addr sp
      · refine ⟨ts ++ ts2, ?_, ?_⟩
        · have : ramDataFromI2c cam (recorded b) s1 addr sp = _ := g1
          rw [this]; simp only [h1, List.append_assoc]
        · intro t ht
          rcases List.mem_append.1 ht with ht | ht
          · exact h2 t ht
          · subst g2
            simp only [List.mem_cons, List.not_mem_nil, or_false] at ht
            rcases ht with rfl | rfl | rfl | rfl | rfl <;> exact ⟨rfl, rfl⟩
      · refine ⟨ts ++ ts2, ?_, ?_⟩
        · have : ramDataFromI2c cam (recorded b) s1 addr sp = _ := g1
          rw [this]; simp only [h1, List.append_assoc]
        · intro t ht
          rcases List.mem_append.1 ht with ht | ht
          · exact h2 t ht
          · exact g2.reads t ht

theorem supported_ranges {env : Env σ ER EW} {d : Driver F σ} (h : Supported env d) (sp : Subpage)
    (a : AccessPattern) : ∃ rs, d.calib.cam.collectRanges env.mode sp a env.height = .ok rs ∧
      ∀ r ∈ rs, r.bufferOffset + r.length ≤ d.pixelBuf.length := by
  rw [h.buffer, h.height]
  rcases h.cam with hc | hc
  · obtain ⟨rs, h1, _, h2, _⟩ := Props.C14_mlx90640_ram_ranges env.mode sp a
    rw [hc]
    exact ⟨rs, h1, fun r hr => (h2 r hr).2.2.2.2.2⟩
  · obtain ⟨rs, h1, _, h2, _⟩ := Props.C15_mlx90641_ram_ranges env.mode sp a
    rw [hc]
    exact ⟨rs, h1, fun r hr => (h2 r hr).2.2.2.2.2⟩

end Mlx.Proofs
