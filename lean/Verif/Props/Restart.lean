import Verif.Spec.Restart
import Verif.Props.Session
import Verif.Props.Access
/-
C88, C89: the settings kept by the camera, and starting again after a crash.
-/
set_option linter.unusedSectionVars false
set_option autoImplicit false
namespace Mlx.Props
open Mlx Mlx.Spec Mlx.Proofs F32Ops
variable {F σ ER EW : Type} [F32Ops F] {mem : σ → Word → Word}

/-! ### Fields of replaced words -/

theorem fields_disjoint {f g : CtrlField} (h : g ≠ f) {i : Nat} (hi : g.Covers i) : ¬ f.Covers i := by
  unfold CtrlField.Covers at *
  cases f <;> cases g <;> simp [CtrlField.lo, CtrlField.width] at * <;> omega

theorem valueIn_congr (f : CtrlField) {w w' : Word} (h : ∀ i, f.Covers i → w'.getLsbD i = w.getLsbD i) :
    f.valueIn w' = f.valueIn w := by
  unfold CtrlField.valueIn
  congr 1
  refine Nat.eq_of_testBit_eq fun i => ?_
  rw [bitsAt_testBit, bitsAt_testBit]
  by_cases hi : i < f.width
  · rw [h (f.lo + i) ⟨by omega, by omega⟩]
  · simp [hi]

theorem valueIn_replaced {f : CtrlField} {w w' : Word} {v : f.Val} (h : f.Replaced w v w') : f.valueIn w' = v := by
  have hs : f.Replaced w v (f.set ⟨w⟩ v).raw := fun i => set_bits f ⟨w⟩ v i
  have : w' = (f.set ⟨w⟩ v).raw := word_ext fun i _ => (h i).trans (hs i).symm
  subst this
  refine code_inj f _ _ ?_
  rw [show f.code (f.valueIn (f.set ⟨w⟩ v).raw) = bitsAt (f.set ⟨w⟩ v).raw f.lo f.width from
    code_decode f _ (bitsAt_lt ..)]
  exact bitsAt_set f _ v

theorem valueIn_replaced_other {f g : CtrlField} (hg : g ≠ f) {w w' : Word} {v : f.Val} (h : f.Replaced w v w') :
    g.valueIn w' = g.valueIn w :=
  valueIn_congr g fun i hi => by rw [h i, if_neg (fields_disjoint hg hi)]

/-- The words `w` and `w'` differ at most in that a field `f` has the value `ask f` in the latter, for the fields for which
`ask f` is a value. -/
def Settled (ask : (f : CtrlField) → Option f.Val) (w w' : Word) : Prop :=
  (∀ f : CtrlField, f.valueIn w' = (ask f).getD (f.valueIn w)) ∧
  ∀ i, (∀ f : CtrlField, ¬ f.Covers i) → w'.getLsbD i = w.getLsbD i

theorem settled_same {ask : (f : CtrlField) → Option f.Val} (h : ∀ f, ask f = none) (w : Word) : Settled ask w w :=
  ⟨fun f => by rw [h f]; rfl, fun _ _ => rfl⟩

theorem settled_replaced {ask : (f : CtrlField) → Option f.Val} {f : CtrlField} {v : f.Val} (h1 : ask f = some v)
    (h2 : ∀ g, g ≠ f → ask g = none) {w w' : Word} (h : f.Replaced w v w') : Settled ask w w' := by
  refine ⟨fun g => ?_, fun i hi => by rw [h i, if_neg (hi f)]⟩
  by_cases hg : g = f
  · subst hg
    rw [h1]
    exact valueIn_replaced h
  · rw [h2 g hg]
    exact valueIn_replaced_other hg h

/-! ### One call -/

/-- What a call that had this outcome has set. -/
def hasSet (op : Op F) (outcome : Res (Err ER EW) Unit) (f : CtrlField) : Option f.Val :=
  match outcome with
  | .ok () => asks op f
  | _ => none

theorem driverSet_settled {env : Env σ ER EW} {d : Driver F σ} (h : StaticMemory env.bus d.addr mem)
    (f : CtrlField) (hf : f ≠ .stepMode) (v : f.Val) :
    (f.Replaced (mem d.bus 0x800D#16) v (mem (driverSet env f hf v d).1.bus 0x800D#16) ∧
      (driverSet env f hf v d).2 = .ok ()) ∨
    (mem (driverSet env f hf v d).1.bus 0x800D#16 = mem d.bus 0x800D#16 ∧
      ∃ e, (driverSet env f hf v d).2 = .err e) := by
  rw [driverSet_eq]
  obtain ⟨hr, hv⟩ := static_regRead h d.bus 0x800D#16
  generalize regRead env.bus d.bus d.addr 0x800D#16 = q at hr hv ⊢
  obtain ⟨s', e | w⟩ := q
  · exact Or.inr ⟨by simp only at hr ⊢; rw [hr], _, rfl⟩
  · have hw := hv w rfl
    simp only at hr ⊢
    have hc : f.code (f.valueIn w) = bitsAt w f.lo f.width := code_decode f _ (bitsAt_lt ..)
    by_cases hcode : f.code (f.valueIn w) = f.code v
    · rw [if_pos hcode]
      refine Or.inl ⟨?_, rfl⟩
      simp only [sawControl, hr]
      intro i
      split
      · rename_i hcov
        rw [← hw, ← hcode, hc, bitsAt_testBit]
        unfold CtrlField.Covers at hcov
        rw [show f.lo + (i - f.lo) = i by omega]
        simp [show i - f.lo < f.width by omega]
      · rfl
    · rw [if_neg hcode]
      have hwr := static_regWrite h s' 0x800D#16 (f.set ⟨w⟩ v).raw
      generalize regWrite env.bus s' d.addr 0x800D#16 (f.set ⟨w⟩ v).raw = q at hwr ⊢
      obtain ⟨s'', _ | e⟩ := q
      · refine Or.inl ⟨?_, rfl⟩
        simp only at hwr ⊢
        rw [hwr, hr]
        intro i
        simp only [setWord, if_true]
        rw [set_bits, ← hw]
      · refine Or.inr ⟨?_, _, rfl⟩
        simp only at hwr ⊢
        rw [hwr, hr]

theorem call_settled {env : Env σ ER EW} {d : Driver F σ} (hs : Supported env d)
    (h : StaticMemory env.bus d.addr mem) (op : Op F) :
    Settled (hasSet op (op.exec env d).2) (mem d.bus 0x800D#16) (mem (op.exec env d).1.bus 0x800D#16) := by
  have key : ∀ (f : CtrlField) (hf : f ≠ .stepMode) (v : f.Val) (op : Op F),
      op.exec env d = discard (driverSet env f hf v d) → asks op f = some v → (∀ g, g ≠ f → asks op g = none) →
      Settled (hasSet op (op.exec env d).2) (mem d.bus 0x800D#16) (mem (op.exec env d).1.bus 0x800D#16) := by
    intro f hf v op he h1 h2
    rw [he]
    rcases driverSet_settled h f hf v with ⟨h3, h4⟩ | ⟨h3, e, h4⟩
    · simp only [discard, h4]
      exact settled_replaced (f := f) (v := v) h1 h2 h3
    · simp only [discard, h4, h3]
      exact settled_same (fun f => rfl) _
  have other : ∀ op : Op F, (∀ g, asks op g = none) → mem (op.exec env d).1.bus 0x800D#16 = mem d.bus 0x800D#16 →
      Settled (hasSet op (op.exec env d).2) (mem d.bus 0x800D#16) (mem (op.exec env d).1.bus 0x800D#16) := by
    intro op h1 h2
    rw [h2]
    refine settled_same (fun f => ?_) _
    unfold hasSet
    split
    · exact h1 f
    · rfl
  have get : ∀ (f : CtrlField) (hf : f ≠ .stepMode) (op : Op F), op.exec env d = discard (driverGet env f hf d) →
      mem (op.exec env d).1.bus 0x800D#16 = mem d.bus 0x800D#16 := by
    intro f hf op he
    rw [he, driverGet_eq]
    have hr := (static_regRead h d.bus 0x800D#16).1
    generalize regRead env.bus d.bus d.addr 0x800D#16 = q at hr ⊢
    obtain ⟨s', e | w⟩ := q
    · simp only [discard] at hr ⊢; rw [hr]
    · simp only [discard, sawControl] at hr ⊢; rw [hr]
  have same : ∀ op : Op F, usesControl op = false → mem (op.exec env d).1.bus 0x800D#16 = mem d.bus 0x800D#16 :=
    fun op hu => (exec_static_other hs h op hu).1 _ (by decide)
  cases op with
  | setUseSubpages v => exact key .useSubpages (by decide) v _ rfl rfl (fun g hg => by cases g <;> first | rfl | exact absurd rfl hg)
  | setDataHold v => exact key .dataHold (by decide) v _ rfl rfl (fun g hg => by cases g <;> first | rfl | exact absurd rfl hg)
  | setSubpageRepeat v => exact key .subpageRepeat (by decide) v _ rfl rfl (fun g hg => by cases g <;> first | rfl | exact absurd rfl hg)
  | setSubpage v => exact key .subpage (by decide) v _ rfl rfl (fun g hg => by cases g <;> first | rfl | exact absurd rfl hg)
  | setFrameRate v => exact key .frameRate (by decide) v _ rfl rfl (fun g hg => by cases g <;> first | rfl | exact absurd rfl hg)
  | setResolution v => exact key .resolution (by decide) v _ rfl rfl (fun g hg => by cases g <;> first | rfl | exact absurd rfl hg)
  | setAccessPattern v => exact key .accessPattern (by decide) v _ rfl rfl (fun g hg => by cases g <;> first | rfl | exact absurd rfl hg)
  | subpagesEnabled => exact other _ (fun g => by cases g <;> rfl) (get .useSubpages (by decide) _ rfl)
  | dataHoldEnabled => exact other _ (fun g => by cases g <;> rfl) (get .dataHold (by decide) _ rfl)
  | subpageRepeat => exact other _ (fun g => by cases g <;> rfl) (get .subpageRepeat (by decide) _ rfl)
  | selectedSubpage => exact other _ (fun g => by cases g <;> rfl) (get .subpage (by decide) _ rfl)
  | frameRate => exact other _ (fun g => by cases g <;> rfl) (get .frameRate (by decide) _ rfl)
  | resolution => exact other _ (fun g => by cases g <;> rfl) (get .resolution (by decide) _ rfl)
  | accessPattern => exact other _ (fun g => by cases g <;> rfl) (get .accessPattern (by decide) _ rfl)
  | _ => exact other _ (fun g => by cases g <;> rfl) (same _ rfl)

/-! ### Sessions -/

theorem lastSet_append (f : CtrlField) (calls : List (Op F × Res (Err ER EW) Unit)) (op : Op F)
    (outcome : Res (Err ER EW) Unit) :
    lastSet f (calls ++ [(op, outcome)]) = (hasSet op outcome f).or (lastSet f calls) := by
  induction calls with
  | nil =>
    rcases outcome with ⟨⟨⟩⟩ | e | _
    · simp [lastSet, hasSet]
    · rfl
    · rfl
  | cons c calls ih =>
    obtain ⟨op', o'⟩ := c
    simp only [List.cons_append, lastSet, ih]
    cases hasSet op outcome f <;> rfl

theorem session_settled {env : Env σ ER EW} {d d1 : Driver F σ} {frame : (Word → Word) → Prop}
    {calls : List (Op F × Res (Err ER EW) Unit)} (hs : Supported env d) (h : StaticMemory env.bus d.addr mem)
    (hx : Session env mem frame d calls d1) :
    Settled (fun f => lastSet f calls) (mem d.bus 0x800D#16) (mem d1.bus 0x800D#16) := by
  induction hx with
  | start => exact settled_same (fun f => rfl) _
  | call op hx ih =>
    obtain ⟨hs1, ha, _⟩ := session_supported hs hx
    have h1 := call_settled hs1 (mem := mem) (by rw [ha]; exact h) op
    refine ⟨fun f => ?_, fun i hi => (h1.2 i hi).trans (ih.2 i hi)⟩
    rw [h1.1 f, ih.1 f]
    dsimp only
    rw [lastSet_append]
    cases hasSet op (op.exec env _).2 f <;> rfl
  | measurement s _ hk _ ih =>
    have := hk 0x800D#16 (by unfold Volatile; decide)
    simp only
    rw [this]
    exact ih

/-- **C88.** The settings of a camera are the last acknowledged ones. In every session, whatever fails in it and whatever the
camera measures: each documented field of the camera's control register has the value that the last call asked for that set
it and returned `Ok` (and the value it had when the driver was made, if there is none), also if later calls to set it failed;
bits that belong to no field are never changed; and a getter that succeeds returns that value. -/
theorem C88_settings_last_acknowledged (m : Mode) (b : Bus σ ER EW) (s s' : σ) (addr : Byte)
    (h : StaticMemory b addr mem) (d : Driver F σ) (n : Nat)
    (hd : (n = 24 ∧ Driver.new640 m b s addr = (s', .ok d)) ∨ (n = 12 ∧ Driver.new641 m b s addr = (s', .ok d)))
    (calls : List (Op F × Res (Err ER EW) Unit)) (d1 : Driver F σ) (hx : Session ⟨m, n, b⟩ mem anyFrame d calls d1) :
    (∀ f : CtrlField, f.valueIn (mem d1.bus 0x800D#16) = (lastSet f calls).getD (f.valueIn (mem s 0x800D#16))) ∧
    (∀ i, (∀ f : CtrlField, ¬ f.Covers i) → (mem d1.bus 0x800D#16).getLsbD i = (mem s 0x800D#16).getLsbD i) ∧
    (∀ (f : CtrlField) (hf : f ≠ .stepMode) (d' : Driver F σ) (v : f.Val),
      driverGet ⟨m, n, b⟩ f hf d1 = (d', .ok v) → v = (lastSet f calls).getD (f.valueIn (mem s 0x800D#16))) := by
  have hs : Supported ⟨m, n, b⟩ d ∧ d.addr = addr := by
    rcases hd with ⟨rfl, hd⟩ | ⟨rfl, hd⟩
    · exact (C39_constructed_drivers_supported m b s addr).1 s' d hd
    · exact (C39_constructed_drivers_supported m b s addr).2 s' d hd
  have hmem : mem d.bus = mem s := by
    rcases hd with ⟨rfl, hd⟩ | ⟨rfl, hd⟩
    · exact (new_static h hd).1
    · exact (new_static h hd).1
  have hst : StaticMemory (⟨m, n, b⟩ : Env σ ER EW).bus d.addr mem := by rw [hs.2]; exact h
  obtain ⟨_, ha1, _⟩ := session_supported hs.1 hx
  have hset := session_settled hs.1 hst hx
  rw [hmem] at hset
  refine ⟨hset.1, hset.2, fun f hf d' v hg => ?_⟩
  rw [driverGet_eq] at hg
  have hv := (static_regRead (mem := mem) (b := b) (addr := d1.addr) (by rw [ha1]; exact hst) d1.bus 0x800D#16).2
  simp only at hg
  generalize regRead b d1.bus d1.addr 0x800D#16 = q at hg hv
  obtain ⟨s1, e | w⟩ := q
  · simp at hg
  · simp only [Prod.mk.injEq, Res.ok.injEq] at hg
    rw [← hg.2, hv w rfl]
    exact hset.1 f

/-- What `C88_settings_last_acknowledged` assumes holds for a camera with the EEPROM of the datasheet's worked example; a
session that sets the frame rate twice ends with the later one. -/
example (m : Mode) : ∃ s' d d1, Driver.new640 (F := ℝ) m (cameraBus 0x33#8) (exampleMemory words640) 0x33#8 = (s', .ok d) ∧
    StaticMemory (cameraBus 0x33#8) 0x33#8 id ∧
    Session ⟨m, 24, cameraBus 0x33#8⟩ id anyFrame d [(.setFrameRate .eight, .ok ()), (.setFrameRate .sixteen, .ok ())] d1 ∧
    CtrlField.frameRate.valueIn (exampleMemory words640 0x800D#16) = .two ∧
    CtrlField.frameRate.valueIn (d1.bus 0x800D#16) = .sixteen := by
  obtain ⟨s', d, hd, -, -, -, -, hfit⟩ := camera640_example m
  have hst := cameraBus_static 0x33#8
  have works := C68_healthy_camera_works m _ _ s' _ d 24 (Or.inl ⟨rfl, hd⟩) hst (cameraBus_serves _ _) hfit
  have x0 : Session ⟨m, 24, cameraBus 0x33#8⟩ id (SupplyFits m d.calib) d [] d := .start
  have o1 := (works _ _ x0).2 (.setFrameRate .eight)
  have x1 := x0.call (.setFrameRate .eight)
  have o2 := (works _ _ x1).2 (.setFrameRate .sixteen)
  have y := (((Session.start : Session ⟨m, 24, cameraBus 0x33#8⟩ id anyFrame d [] d).call (.setFrameRate .eight)).call
    (.setFrameRate .sixteen))
  rw [o1, o2] at y
  refine ⟨s', d, _, hd, hst, y, by decide +kernel, ?_⟩
  exact (C88_settings_last_acknowledged m _ _ s' _ hst d 24 (Or.inl ⟨rfl, hd⟩) _ _ y).1 .frameRate

/-! ### Starting again -/

/-- Construction on static memory whose EEPROM is accepted: only the bus can fail. -/
theorem new_static_outcome {C : Type} {fromData : List Byte → Res LibErr C} {toCalib : C → Calib F} {b : Bus σ ER EW}
    {n : Nat} {s : σ} {addr : Byte} (h : StaticMemory b addr mem) {c : C}
    (hc : fromData (memBytes (mem s) 0x2400#16 1664) = .ok c) :
    mem (Driver.new fromData toCalib b n s addr).1 = mem s ∧
    ((∃ e, (Driver.new fromData toCalib b n s addr).2 = .err (.i2cWriteRead e)) ∨
     ∃ d, (Driver.new fromData toCalib b n s addr).2 = .ok d ∧ d.bus = (Driver.new fromData toCalib b n s addr).1 ∧
       d.addr = addr ∧ d.calib = toCalib c ∧ d.emissivity = (toCalib c).emissivity.getD (lit 1) ∧ d.reflected = none ∧
       d.ambientTemp = none ∧ Caches d (mem s 0x800D#16)) := by
  unfold Driver.new calibFromI2c Bus.read
  have h1 := h.read_data s 0x2400#16 (List.replicate ((0x273F - 0x2400 + 1) * 2) 0#8)
  have h2 := h.read_mem s 0x2400#16 (List.replicate ((0x273F - 0x2400 + 1) * 2) 0#8)
  rw [List.length_replicate] at h1
  generalize b.writeRead s addr (toBe 0x2400#16) (List.replicate ((0x273F - 0x2400 + 1) * 2) 0#8) = q at h1 h2 ⊢
  obtain ⟨s1, bytes, _ | e⟩ := q
  · have hb : bytes = memBytes (mem s) 0x2400#16 1664 := h1 rfl
    simp only at h2 ⊢
    rw [hb, hc]
    simp only [Res.mapErr]
    unfold Driver.newWithCalibration
    rw [readControl_eq]
    obtain ⟨hr, hv⟩ := static_regRead h s1 0x800D#16
    generalize regRead b s1 addr 0x800D#16 = q at hr hv ⊢
    obtain ⟨s2, e | w⟩ := q
    · exact ⟨hr.trans h2, Or.inl ⟨e, rfl⟩⟩
    · have hw := hv w rfl
      rw [h2] at hw
      simp only [resolution_val, accessPattern_val, Res.ok_bind]
      refine ⟨hr.trans h2, Or.inr ⟨_, rfl, rfl, rfl, rfl, rfl, rfl, rfl, ?_⟩⟩
      rw [← hw]
      exact ⟨rfl, rfl⟩
  · exact ⟨h2, Or.inl ⟨e, rfl⟩⟩

theorem eeprom_bytes {M M' : Word → Word} (h : ∀ a, ¬ Volatile a → a ≠ 0x800D#16 → M' a = M a) :
    memBytes M' 0x2400#16 1664 = memBytes M 0x2400#16 1664 := by
  unfold memBytes
  refine List.map_congr_left fun i hi => ?_
  have hi' : i < 1664 := List.mem_range.1 hi
  have ha : (0x2400#16 + BitVec.ofNat 16 (i / 2)) = BitVec.ofNat 16 (0x2400 + i / 2) := by
    rw [BitVec.ofNat_add]
  have hst := eeprom_still (a := 0x2400 + i / 2) (Nat.le_add_right ..) (by omega)
  simp only
  rw [ha, h _ hst.1 hst.2]

theorem mortal_static {b : Bus σ ER EW} {addr : Byte} (h : StaticMemory b addr mem) (er : ER) (ew : EW) :
    StaticMemory (mortal b er ew) addr (fun s => mem s.1) where
  read_data := by
    rintro ⟨s, _ | left⟩ base buf hok
    · cases hok
    · exact h.read_data s base buf hok
  read_mem := by
    rintro ⟨s, _ | left⟩ base buf
    · rfl
    · exact h.read_mem s base buf
  write_ok := by
    rintro ⟨s, _ | left⟩ reg v hok
    · cases hok
    · exact h.write_ok s reg v hok
  write_err := by
    rintro ⟨s, _ | left⟩ reg v hok
    · rfl
    · exact h.write_err s reg v hok

/-- **C89.** Starting again after a crash. A program makes a driver and uses it in any session (the camera measuring at
will between the calls), until it is killed after any number of transactions, also in the middle of a call. Then the camera
is as it was, but for its RAM and status register and for the control register, which has the settings of the calls that
returned `Ok`; a new driver can be made unless the bus fails; it has the same calibration, its settings are those of the
control register even if the old driver's were not, and it starts with the default emissivity, no reflected temperature and no
ambient temperature; and unless a write of the control register had failed before, it uses the same access pattern and resolution
correction as the old driver did. -/
theorem C89_restart_after_crash (m : Mode) (b : Bus σ ER EW) (s s' : σ) (addr : Byte) (h : StaticMemory b addr mem)
    (make : Bus σ ER EW → σ → Byte → σ × Res (Err ER EW) (Driver F σ)) (n : Nat)
    (hmake : (n = 24 ∧ make = Driver.new640 m) ∨ (n = 12 ∧ make = Driver.new641 m))
    (d : Driver F σ) (hd : make b s addr = (s', .ok d)) (left : Nat) (er : ER) (ew : EW)
    (calls : List (Op F × Res (Err ER EW) Unit)) (d1 : Driver F (σ × Nat))
    (hx : Session ⟨m, n, mortal b er ew⟩ (fun x => mem x.1) anyFrame (mortalDriver d left) calls d1) :
    let s1 := d1.bus.1
    (∀ a, ¬ Volatile a → a ≠ 0x800D#16 → mem s1 a = mem s a) ∧
    (∀ f : CtrlField, f.valueIn (mem s1 0x800D#16) = (lastSet f calls).getD (f.valueIn (mem s 0x800D#16))) ∧
    (∀ i, (∀ f : CtrlField, ¬ f.Covers i) → (mem s1 0x800D#16).getLsbD i = (mem s 0x800D#16).getLsbD i) ∧
    mem (make b s1 addr).1 = mem s1 ∧
    ((∃ e, (make b s1 addr).2 = .err (.i2cWriteRead e)) ∨
     ∃ d2, (make b s1 addr).2 = .ok d2 ∧ d2.bus = (make b s1 addr).1 ∧ d2.addr = addr ∧ d2.calib = d.calib ∧
       Caches d2 (mem s1 0x800D#16) ∧
       d2.effectiveEmissivity = d.calib.emissivity.getD (lit 1) ∧ d2.reflectedTemperature = none ∧ d2.ambientTemp = none ∧
       ((∀ c ∈ calls, ¬ ControlWriteFailed c.1 c.2) →
         d2.accessPattern = d1.accessPattern ∧ d2.resCorr = d1.resCorr)) := by
  intro s1
  have hcon : (n = 24 ∧ Driver.new640 m b s addr = (s', .ok d)) ∨ (n = 12 ∧ Driver.new641 m b s addr = (s', .ok d)) := by
    rcases hmake with ⟨hn, rfl⟩ | ⟨hn, rfl⟩
    · exact Or.inl ⟨hn, hd⟩
    · exact Or.inr ⟨hn, hd⟩
  have hs : Supported ⟨m, n, b⟩ d ∧ d.addr = addr := by
    rcases hcon with ⟨rfl, hd⟩ | ⟨rfl, hd⟩
    · exact (C39_constructed_drivers_supported m b s addr).1 s' d hd
    · exact (C39_constructed_drivers_supported m b s addr).2 s' d hd
  have hmem : mem d.bus = mem s := by
    rcases hcon with ⟨rfl, hd⟩ | ⟨rfl, hd⟩
    · exact (new_static h hd).1
    · exact (new_static h hd).1
  have hsm : Supported (⟨m, n, mortal b er ew⟩ : Env (σ × Nat) ER EW) (mortalDriver d left) :=
    ⟨hs.1.1, hs.1.2, hs.1.3⟩
  have hst : StaticMemory (⟨m, n, mortal b er ew⟩ : Env (σ × Nat) ER EW).bus (mortalDriver d left).addr
      (fun x => mem x.1) := by
    show StaticMemory (mortal b er ew) d.addr _
    rw [hs.2]
    exact mortal_static h er ew
  have hset := session_settled hsm hst hx
  have hkeep : ∀ a, ¬ Volatile a → a ≠ 0x800D#16 → mem s1 a = mem s a := fun a h1 h2 => by
    rw [← hmem]
    exact session_memory hsm hst hx a h1 h2
  have hbytes := eeprom_bytes hkeep
  have hcache0 := C47_after_construction m b s s' addr d h (hcon.imp And.right And.right)
  have hcaches : (∀ c ∈ calls, ¬ ControlWriteFailed c.1 c.2) → Caches d1 (mem s1 0x800D#16) :=
    fun hn => session_caches hsm hst hcache0 hx hn
  have hcal : d1.calib = d.calib := (session_supported hsm hx).2.2
  rw [show mem (mortalDriver d left).bus.1 = mem s from hmem] at hset
  refine ⟨hkeep, hset.1, hset.2, ?_⟩
  have fin : ∀ {C : Type} (fromData : List Byte → Res LibErr C) (toCalib : C → Calib F) (k : Nat),
      make = (fun b s addr => Driver.new fromData toCalib b k s addr) →
      mem (make b s1 addr).1 = mem s1 ∧
      ((∃ e, (make b s1 addr).2 = .err (.i2cWriteRead e)) ∨
       ∃ d2, (make b s1 addr).2 = .ok d2 ∧ d2.bus = (make b s1 addr).1 ∧ d2.addr = addr ∧ d2.calib = d.calib ∧
         Caches d2 (mem s1 0x800D#16) ∧
         d2.effectiveEmissivity = d.calib.emissivity.getD (lit 1) ∧ d2.reflectedTemperature = none ∧ d2.ambientTemp = none ∧
         ((∀ c ∈ calls, ¬ ControlWriteFailed c.1 c.2) →
           d2.accessPattern = d1.accessPattern ∧ d2.resCorr = d1.resCorr)) := by
    intro C fromData toCalib k hm
    rw [hm] at hd ⊢
    obtain ⟨_, c, h1, h2⟩ := new_static h hd
    rw [← hbytes] at h1
    obtain ⟨h3, h4⟩ := new_static_outcome (toCalib := toCalib) (n := k) h h1
    refine ⟨h3, h4.imp id ?_⟩
    rintro ⟨d2, e1, e2, e3, e4, e5, e6, e7, e8⟩
    refine ⟨d2, e1, e2, e3, e4.trans h2.symm, e8, by rw [h2]; exact e5, e6, e7, fun hn => ?_⟩
    obtain ⟨c1, c2⟩ := hcaches hn
    obtain ⟨c3, c4⟩ := e8
    refine ⟨c3.trans c1.symm, ?_⟩
    rw [c4, c2, e4, hcal, h2]
  rcases hmake with ⟨_, hm⟩ | ⟨_, hm⟩
  · exact fin _ _ _ hm
  · exact fin _ _ _ hm

theorem mortal_camera_read (M : Word → Word) (left : Nat) (addr : Byte) (reg : Word) :
    regRead (mortal (cameraBus addr) () ()) (M, left + 1) addr reg = ((M, left), .ok (M reg)) := by
  have h1 : (cameraBus addr).writeRead M addr (toBe reg) [0#8, 0#8] = (M, memBytes M reg 2, none) := by
    have : be16 (hiByte reg) (loByte reg) = reg := be16_toBe reg
    simp [cameraBus, toBe, this]
  obtain ⟨h2, h3⟩ := static_regRead (mortal_static (cameraBus_static addr) () ()) (M, left + 1) reg
  unfold regRead at *
  have h0 : (mortal (cameraBus addr) () ()).writeRead (M, left + 1) addr (toBe reg) [0#8, 0#8] =
      ((M, left), memBytes M reg 2, none) := by
    show (((_, _), _) : _ × _) = _
    rw [h1]
  rw [h0] at h3 ⊢
  dsimp only at h3 ⊢
  rw [h3 _ rfl]
  rfl

theorem mortal_camera_write (M : Word → Word) (left : Nat) (addr : Byte) (reg w : Word) :
    regWrite (mortal (cameraBus addr) () ()) (M, left + 1) addr reg w = ((setWord M reg w, left), none) := by
  unfold regWrite
  have h1 : (cameraBus addr).write M addr (toBe reg ++ toBe w) = (setWord M reg w, none) := by
    have e1 : be16 (hiByte reg) (loByte reg) = reg := be16_toBe reg
    have e2 : be16 (hiByte w) (loByte w) = w := be16_toBe w
    simp [cameraBus, toBe, e1, e2]
  show (((_, _), _) : _ × _) = _
  rw [h1]

/-- What `C89_restart_after_crash` assumes holds for a program that sets the frame rate and then the resolution of a camera
with the EEPROM of the datasheet's worked example, and is killed after three transactions, that is, between the read and the
write of the control register of the second call. -/
example (m : Mode) : ∃ s' d d1, Driver.new640 (F := ℝ) m (cameraBus 0x33#8) (exampleMemory words640) 0x33#8 = (s', .ok d) ∧
    StaticMemory (cameraBus 0x33#8) 0x33#8 id ∧
    Session ⟨m, 24, mortal (cameraBus 0x33#8) () ()⟩ (fun x => id x.1) anyFrame (mortalDriver d 3)
      [(.setFrameRate .eight, .ok ()), (.setResolution .nineteen, .err (.i2cWrite ()))] d1 ∧
    CtrlField.frameRate.valueIn (d1.bus.1 0x800D#16) = .eight ∧
    CtrlField.resolution.valueIn (d1.bus.1 0x800D#16) = .eighteen := by
  obtain ⟨s', d, hd, -, -, -, hbus, -⟩ := camera640_example m
  have ha : d.addr = 0x33#8 := ((C39_constructed_drivers_supported m _ _ _).1 s' d hd).2
  have hst := cameraBus_static 0x33#8
  have y := (((Session.start : Session ⟨m, 24, mortal (cameraBus 0x33#8) () ()⟩ (fun x => id x.1) anyFrame
    (mortalDriver d 3) [] (mortalDriver d 3)).call (.setFrameRate .eight)).call (.setResolution .nineteen))
  have hw : exampleMemory words640 0x800D#16 = 0x1901#16 := by decide +kernel
  have e1 : (Op.exec ⟨m, 24, mortal (cameraBus 0x33#8) () ()⟩ (.setFrameRate .eight) (mortalDriver d 3)).2 = .ok () ∧
      (Op.exec ⟨m, 24, mortal (cameraBus 0x33#8) () ()⟩ (.setFrameRate .eight) (mortalDriver d 3)).1.bus =
        (setWord (exampleMemory words640) 0x800D#16 0x1A01#16, 1) ∧
      (Op.exec ⟨m, 24, mortal (cameraBus 0x33#8) () ()⟩ (.setFrameRate .eight) (mortalDriver d 3)).1.addr = 0x33#8 := by
    have hr := mortal_camera_read (exampleMemory words640) 2 0x33#8 0x800D#16
    have hx := mortal_camera_write (exampleMemory words640) 1 0x33#8 0x800D#16 0x1A01#16
    show (discard (driverSet _ .frameRate (by decide) .eight _)).2 = _ ∧
      (discard (driverSet _ .frameRate (by decide) .eight _)).1.bus = _ ∧
      (discard (driverSet _ .frameRate (by decide) .eight _)).1.addr = _
    rw [driverSet_eq]
    simp only [mortalDriver, hbus, ha, hr, hw]
    rw [if_neg (by decide), show (CtrlField.frameRate.set ⟨0x1901#16⟩ .eight).raw = 0x1A01#16 by decide, hx]
    exact ⟨rfl, rfl, rfl⟩
  generalize Op.exec ⟨m, 24, mortal (cameraBus 0x33#8) () ()⟩ (.setFrameRate .eight) (mortalDriver d 3) = q at e1 y
  obtain ⟨d1, r⟩ := q
  obtain ⟨rfl, hb1, ha1⟩ := e1
  dsimp only at hb1 ha1 y
  have e2 : (Op.exec ⟨m, 24, mortal (cameraBus 0x33#8) () ()⟩ (.setResolution .nineteen) d1).2 = .err (.i2cWrite ()) ∧
      (Op.exec ⟨m, 24, mortal (cameraBus 0x33#8) () ()⟩ (.setResolution .nineteen) d1).1.bus =
        (setWord (exampleMemory words640) 0x800D#16 0x1A01#16, 0) := by
    have hr := mortal_camera_read (setWord (exampleMemory words640) 0x800D#16 0x1A01#16) 0 0x33#8 0x800D#16
    have hw : setWord (exampleMemory words640) 0x800D#16 0x1A01#16 0x800D#16 = 0x1A01#16 := by unfold setWord; rw [if_pos rfl]
    show (discard (driverSet _ .resolution (by decide) .nineteen _)).2 = _ ∧
      (discard (driverSet _ .resolution (by decide) .nineteen _)).1.bus = _
    rw [driverSet_eq]
    simp only [hb1, ha1, hr, hw]
    rw [if_neg (by decide)]
    exact ⟨rfl, rfl⟩
  rw [e2.1] at y
  refine ⟨s', d, _, hd, hst, y, ?_, ?_⟩
  · rw [e2.2]
    show CtrlField.frameRate.valueIn (setWord (exampleMemory words640) 0x800D#16 0x1A01#16 0x800D#16) = _
    unfold setWord; rw [if_pos rfl]; decide
  · rw [e2.2]
    show CtrlField.resolution.valueIn (setWord (exampleMemory words640) 0x800D#16 0x1A01#16 0x800D#16) = _
    unfold setWord; rw [if_pos rfl]; decide

end Mlx.Props
