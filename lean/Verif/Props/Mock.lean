import Verif.Proofs.Mock
import Verif.Props.Access
/-
C78 to C81: the mock camera of the workspace.
-/
set_option linter.unusedSectionVars false
set_option autoImplicit false
namespace Mlx.Props
open Mlx Mlx.Spec Mlx.Proofs F32Ops
variable {F : Type} [F32Ops F] {c : MockConfig} {cam : Cam} {addr : Byte}

/-! ### C79: transactions with the mock -/

theorem mem_addOperation (s : Mock c) (op : MockOp) : mockMemory (s.addOperation op) = mockMemory s := rfl

theorem get_iff (h : MockOf cam addr c) (m : Mode) (s : Mock c) (base : Word) {count : Nat} (hpos : 0 < count) :
    (∃ r, s.get m base count = .ok r) ↔ MockReadable cam base count := by
  obtain ⟨hl, hram, _⟩ := layout_of h
  constructor
  · rintro ⟨r, hr⟩
    obtain ⟨h1, h2⟩ := get_known hl hr
    refine ⟨hpos, h1, h2.imp (fun h => ⟨h.1, by omega⟩) id⟩
  · rintro ⟨_, h1, h2 | h2 | h2⟩
    · exact get_served hl m s (Or.inr (Or.inl ⟨hpos, h1, h2.1, by omega⟩))
    · exact get_served hl m s (Or.inr (Or.inr ⟨hpos, h1, h2.1, h2.2⟩))
    · exact get_served hl m s (Or.inl h2)

/-- **C79 (reads).** A combined transaction with the mock of a camera, any bytes sent and any buffer, in both builds: it
succeeds exactly when it is for the mock's I²C address, sends the two bytes of an address and reads words of RAM or of
EEPROM or one register; then the buffer holds what is there. It never changes the memory. -/
theorem C79_mock_reads (h : MockOf cam addr c) (m : Mode) (s : Mock c) (a : Byte) (sent buf : List Byte) :
    ((((mockBus m c).writeRead s a sent buf).2.2 = none) ↔
      a = addr ∧ ∃ base, sent = toBe base ∧ MockReadable cam base buf.length) ∧
    (∀ base, sent = toBe base → ((mockBus m c).writeRead s a sent buf).2.2 = none →
      ((mockBus m c).writeRead s a sent buf).2.1 = memBytes (mockMemory s) base buf.length) ∧
    (((mockBus m c).writeRead s a sent buf).2.2 ≠ none → ((mockBus m c).writeRead s a sent buf).2.1 = buf) ∧
    mockMemory ((mockBus m c).writeRead s a sent buf).1 = mockMemory s := by
  obtain ⟨hl, hram, hadr⟩ := layout_of h
  rcases mock_read hl m s a sent buf with ⟨⟨f, h1⟩, h2⟩ | ⟨ha, hpos, base, rfl, h1⟩
  · rw [h1]
    refine ⟨⟨fun hc => (nomatch hc), ?_⟩, fun _ _ hc => (nomatch hc), fun _ => rfl, rfl⟩
    rintro ⟨h3, base, h4, h5⟩
    obtain ⟨r, hr⟩ := (get_iff h m s base h5.1).2 h5
    exact absurd ⟨h3.trans hadr.symm, h5.1, base, r, h4, hr⟩ h2
  · rw [h1]
    have hinj : ∀ base', toBe base = toBe base' → base' = base := fun base' hb => (toBe_inj hb).symm
    cases hg : s.get m base buf.length with
    | ok r =>
      refine ⟨⟨fun _ => ⟨ha.trans hadr, base, rfl, (get_iff h m s base hpos).1 ⟨r, hg⟩⟩, fun _ => rfl⟩, ?_,
        fun hc => absurd rfl hc, rfl⟩
      rintro base' hb -
      rw [hinj base' hb]
      exact get_bytes hl hg
    | err e =>
      refine ⟨⟨fun hc => (nomatch hc), ?_⟩, fun _ _ hc => (nomatch hc), fun _ => rfl, rfl⟩
      rintro ⟨_, base', hb, hr⟩
      rw [hinj base' hb] at hr
      obtain ⟨r, hr⟩ := (get_iff h m s base hpos).2 hr
      rw [hg] at hr; cases hr
    | panic =>
      refine ⟨⟨fun hc => (nomatch hc), ?_⟩, fun _ _ hc => (nomatch hc), fun _ => rfl, rfl⟩
      rintro ⟨_, base', hb, hr⟩
      rw [hinj base' hb] at hr
      obtain ⟨r, hr⟩ := (get_iff h m s base hpos).2 hr
      rw [hg] at hr; cases hr

theorem unprotected_eq {reg : Word} {n : Nat}
    (h : (reg = 0x8000#16 ∧ n = 6) ∨ (reg = 0x800D#16 ∧ n = 13) ∨ (reg = 0x800F#16 ∧ n = 4)) (w w' : Word) :
    OnlyBits (Unprotected reg) w w' ↔ OnlyBits (fun i => i < n) w w' := by
  apply OnlyBits.congr
  intro i
  unfold Unprotected
  rcases h with ⟨rfl, rfl⟩ | ⟨rfl, rfl⟩ | ⟨rfl, rfl⟩ <;> simp

theorem eepromMask_bits (k : Nat) (hk : k < 4) (i : Nat) :
    (wordAt Mock.eepromMask k).getLsbD i = true ↔ UnprotectedEeprom k i := by
  unfold UnprotectedEeprom
  have h0 := mask_bits (wordAt Mock.eepromMask 0) (n := 13) (by decide) (by decide) i
  have h1 := mask_bits (wordAt Mock.eepromMask 1) (n := 0) (by decide) (by decide) i
  have h2 := mask_bits (wordAt Mock.eepromMask 2) (n := 4) (by decide) (by decide) i
  have h3 := mask_bits (wordAt Mock.eepromMask 3) (n := 7) (by decide) (by decide) i
  obtain rfl | rfl | rfl | rfl : k = 0 ∨ k = 1 ∨ k = 2 ∨ k = 3 := by omega
  · rw [h0]; simp
  · rw [h1]; simp
  · rw [h2]; simp
  · rw [h3]; simp

/-- **C79 (writes of one word to a register).** With the mock of a camera, in both builds: the write succeeds exactly when
it changes no protected bit; then the register holds the new word and no other word of the memory is changed. -/
theorem C79_mock_register_writes (h : MockOf cam addr c) (m : Mode) (s : Mock c) (reg v : Word)
    (hr : reg = 0x8000#16 ∨ reg = 0x800D#16 ∨ reg = 0x800F#16) :
    (((mockBus m c).write s addr (toBe reg ++ toBe v)).2 = none ↔ OnlyBits (Unprotected reg) (mockMemory s reg) v) ∧
    (((mockBus m c).write s addr (toBe reg ++ toBe v)).2 = none →
      mockMemory ((mockBus m c).write s addr (toBe reg ++ toBe v)).1 = setWord (mockMemory s) reg v) := by
  obtain ⟨hl, hram, hadr⟩ := layout_of h
  have key : (∃ s', s.set m reg (toBe v) = .ok s') ↔ OnlyBits (Unprotected reg) (mockMemory s reg) v := by
    have hv : be16 (hiByte v) (loByte v) = v := be16_toBe v
    obtain ⟨n, new, hn⟩ : ∃ n new,
        ((reg = 0x8000#16 ∧ n = 6 ∧ mockMemory s reg = wordAt s.status.1 0 ∧
          new = { s with status := ⟨[hiByte v, loByte v], rfl⟩ }) ∨
        (reg = 0x800D#16 ∧ n = 13 ∧ mockMemory s reg = wordAt s.control.1 0 ∧
          new = { s with control := ⟨[hiByte v, loByte v], rfl⟩ }) ∨
        (reg = 0x800F#16 ∧ n = 4 ∧ mockMemory s reg = wordAt s.i2cConfig.1 0 ∧
          new = { s with i2cConfig := ⟨[hiByte v, loByte v], rfl⟩ })) := by
      rcases hr with rfl | rfl | rfl
      · exact ⟨_, _, Or.inl ⟨rfl, rfl, mem_register hl s (by decide), rfl⟩⟩
      · exact ⟨_, _, Or.inr (Or.inl ⟨rfl, rfl, mem_register hl s (by decide), rfl⟩)⟩
      · exact ⟨_, _, Or.inr (Or.inr ⟨rfl, rfl, mem_register hl s (by decide), rfl⟩)⟩
    obtain ⟨h1, h2⟩ := set_register hl m s (hiByte v) (loByte v) _ new hn
    rw [unprotected_eq (hn.imp (fun h => ⟨h.1, h.2.1⟩) (Or.imp (fun h => ⟨h.1, h.2.1⟩) (fun h => ⟨h.1, h.2.1⟩)))]
    rw [hv] at h1 h2
    by_cases hb : OnlyBits (fun i => i < n) (mockMemory s reg) v
    · exact ⟨fun _ => hb, fun _ => ⟨_, h1 hb⟩⟩
    · exact ⟨fun ⟨s', hs'⟩ => (by rw [show s.set m reg (toBe v) = _ from h2 hb] at hs'; cases hs'), fun hc => absurd hc hb⟩
  rcases mock_write hl m s addr (toBe reg ++ toBe v) with ⟨⟨f, h1⟩, h2⟩ | ⟨ha, reg', payload, s', h0, h1, h2⟩
  · rw [h1]
    refine ⟨⟨fun hc => (nomatch hc), fun hb => ?_⟩, fun hc => (nomatch hc)⟩
    obtain ⟨s', hs'⟩ := key.2 hb
    exact absurd ⟨hadr.symm, reg, toBe v, s', rfl, hs'⟩ h2
  · obtain ⟨rfl, rfl⟩ : reg' = reg ∧ payload = toBe v := by
      have := List.append_inj h0.symm rfl
      exact ⟨toBe_inj this.1, this.2⟩
    rw [h2]
    exact ⟨⟨fun _ => key.1 ⟨s', h1⟩, fun _ => rfl⟩, fun _ => (mem_addOperation ..).trans (set_word hl h1)⟩

/-- **C79 (all writes).** Any write to the mock of a camera, of any bytes, to any I²C address, in both builds. One that
fails changes nothing at all. No write changes the RAM. One that succeeds is noted as an operation, and is either a write
of one word to one of the three registers (see above), or one of at most eight bytes to the EEPROM, to an address from
0x240C to 0x2410, which changes just these bytes; starting at 0x240C it changes no protected bit of a whole word. -/
theorem C79_mock_writes (h : MockOf cam addr c) (m : Mode) (s : Mock c) (a : Byte) (sent : List Byte) :
    (((mockBus m c).write s a sent).2 ≠ none → ((mockBus m c).write s a sent).1 = s) ∧
    ((mockBus m c).write s a sent).1.ram = s.ram ∧
    (((mockBus m c).write s a sent).2 = none → a = addr ∧ ∃ reg payload, sent = toBe reg ++ payload ∧
      ((mockBus m c).write s a sent).1.recent = (MockOp.write reg payload.length :: s.recent).take 32 ∧
      ((((reg = 0x8000#16 ∨ reg = 0x800D#16 ∨ reg = 0x800F#16) ∧ ∃ v, payload = toBe v ∧
          OnlyBits (Unprotected reg) (mockMemory s reg) v) ∧ ((mockBus m c).write s a sent).1.eeprom = s.eeprom) ∨
       (0x240C ≤ reg.toNat ∧ reg.toNat ≤ 0x2410 ∧ payload.length ≤ 8 ∧
          (∀ i, ((mockBus m c).write s a sent).1.eeprom.bytes[i]? =
            if i < 2 * (reg.toNat - 0x2400) then s.eeprom.bytes[i]?
            else if i < 2 * (reg.toNat - 0x2400) + payload.length then payload[i - 2 * (reg.toNat - 0x2400)]?
            else s.eeprom.bytes[i]?) ∧
          (∀ x, 0x8000 ≤ x.toNat → mockMemory ((mockBus m c).write s a sent).1 x = mockMemory s x) ∧
          (reg = 0x240C#16 → ∀ k, 2 * k + 1 < payload.length →
            OnlyBits (UnprotectedEeprom k) (wordAt s.eeprom.bytes (12 + k)) (wordAt payload k))))) := by
  obtain ⟨hl, hram, hadr⟩ := layout_of h
  rcases mock_write hl m s a sent with ⟨⟨f, h1⟩, _⟩ | ⟨ha, reg, payload, s', rfl, h1, h2⟩
  · rw [h1]
    exact ⟨fun _ => rfl, rfl, fun hc => (nomatch hc)⟩
  · rw [h2]
    refine ⟨fun hc => absurd rfl hc, ?_, fun _ => ⟨ha.trans hadr, reg, payload, rfl, ?_, ?_⟩⟩
    · show s'.ram = s.ram
      rcases set_cases hl h1 with ⟨_, _, _, _, _, _, ⟨_, _, _, rfl⟩ | ⟨_, _, _, rfl⟩ | ⟨_, _, _, rfl⟩⟩ | ⟨h3, h4, h5⟩
      · rfl
      · rfl
      · rfl
      · obtain ⟨_, _, _, _, rfl, _⟩ := set_eeprom hl h3 h5
        rfl
    · show (MockOp.write reg payload.length :: s'.recent).take 32 = _
      have hrec : s'.recent = s.recent := by
        rcases set_cases hl h1 with ⟨_, _, _, _, _, _, ⟨_, _, _, rfl⟩ | ⟨_, _, _, rfl⟩ | ⟨_, _, _, rfl⟩⟩ | ⟨h3, h4, h5⟩
        · rfl
        · rfl
        · rfl
        · obtain ⟨_, _, _, _, rfl, _⟩ := set_eeprom hl h3 h5
          rfl
      rw [hrec]
    · rcases set_cases hl h1 with ⟨hi, lo, n, old, rfl, hb, hr⟩ | ⟨h3, h4, h5⟩
      · left
        have hpay : [hi, lo] = toBe (be16 hi lo) := (toBe_be16 hi lo).symm
        have hn := hr.imp (fun h => And.intro h.1 h.2.1) (Or.imp (fun h => And.intro h.1 h.2.1) (fun h => And.intro h.1 h.2.1))
        refine ⟨⟨hn.imp And.left (Or.imp And.left And.left), be16 hi lo, hpay, (unprotected_eq hn _ _).2 ?_⟩, ?_⟩
        · have hm : mockMemory s reg = old := by
            rcases hr with ⟨rfl, _, rfl, _⟩ | ⟨rfl, _, rfl, _⟩ | ⟨rfl, _, rfl, _⟩ <;> exact mem_register hl s (by decide)
          rw [hm]; exact hb
        · show s'.eeprom = s.eeprom
          rcases hr with ⟨_, _, _, rfl⟩ | ⟨_, _, _, rfl⟩ | ⟨_, _, _, rfl⟩ <;> rfl
      · right
        obtain ⟨h6, h7, h8, hfit, hs', h9⟩ := set_eeprom hl h3 h5
        refine ⟨h6, h7, h8, ?_, ?_, ?_⟩
        · intro i
          have hb : s'.eeprom.bytes[i]? = _ := (congrArg (fun x : Mock c => x.eeprom.bytes[i]?) hs').trans (blit_get s.eeprom _ payload hfit i)
          rw [Nat.mul_comm] at hb
          exact hb
        · intro x hx
          rw [mem_register hl s hx, mem_addOperation, mem_register hl s' hx, hs']
        · intro hreg k hk
          have hn : reg.toNat = 0x240C := by rw [hreg]; rfl
          have e1 : reg.toNat - 0x240C + k = k := by rw [hn, Nat.sub_self, Nat.zero_add]
          have e2 : reg.toNat - 0x2400 + k = 12 + k :=
            congrArg (· + k) (Nat.sub_eq_of_eq_add (hn.trans (by norm_num)))
          have := h9 k (by rw [hn, Nat.sub_self]; omega)
          rw [e1, e2] at this
          exact (OnlyBits.congr (eepromMask_bits k (by omega))).1 this

/-! ### C78: the driver on the mock -/

theorem mock_static (h : MockOf cam addr c) (m : Mode) : StaticMemory (mockBus m c) addr mockMemory where
  read_data s base buf hok := (C79_mock_reads h m s addr (toBe base) buf).2.1 base rfl hok
  read_mem s base buf := (C79_mock_reads h m s addr (toBe base) buf).2.2.2
  write_ok s reg v hok := by
    obtain ⟨hl, hram, hadr⟩ := layout_of h
    rcases mock_write hl m s addr (toBe reg ++ toBe v) with ⟨⟨f, h1⟩, h2⟩ | ⟨ha, reg', payload, s', h0, h1, h2⟩
    · rw [h1] at hok; cases hok
    · obtain ⟨rfl, rfl⟩ : reg' = reg ∧ payload = toBe v := by
        have := List.append_inj h0.symm rfl
        exact ⟨toBe_inj this.1, this.2⟩
      rw [h2]
      exact (mem_addOperation ..).trans (set_word hl h1)
  write_err s reg v hne := by rw [(C79_mock_writes h m s addr _).1 hne]

theorem mock_serves (h : MockOf cam addr c) (m : Mode) : Serves (mockBus m c) cam addr mockMemory where
  read s base buf hd := by
    refine (C79_mock_reads h m s addr (toBe base) buf).1.2 ⟨rfl, base, rfl, ?_⟩
    rcases hd with ⟨h1, h2⟩ | ⟨h1, h2, h3, h4⟩
    · exact ⟨by omega, by omega, Or.inr (Or.inr ⟨h1, h2.imp id Or.inl⟩)⟩
    · exact ⟨h1, h2, Or.inl ⟨h3, h4⟩⟩
  write s reg w hr hb := by
    refine (C79_mock_register_writes h m s reg w (hr.imp id Or.inl)).1.2 ?_
    intro i hi
    refine hb i fun hc => hi ?_
    unfold Editable at hc
    unfold Unprotected
    rcases hc with ⟨rfl, h1⟩ | ⟨rfl, h1⟩
    · exact Or.inl ⟨rfl, by omega⟩
    · exact Or.inr (Or.inl ⟨rfl, by omega⟩)
  eeprom s buf hb := by
    refine (C79_mock_reads h m s addr (toBe 0x2400#16) buf).1.2 ⟨rfl, _, rfl, ?_⟩
    rw [hb]
    exact ⟨by decide, by decide, Or.inr (Or.inl (by decide))⟩

theorem mock_eeprom (h : MockOf cam addr c) (s : Mock c) : SameEeprom (eepromWord s.eeprom.bytes) (eepromOf (mockMemory s)) := by
  obtain ⟨hl, _, _⟩ := layout_of h
  intro a h1 h2
  unfold eepromOf
  have ha : (BitVec.ofNat 16 a).toNat = a := by
    rw [BitVec.toNat_ofNat, Nat.mod_eq_of_lt (by omega)]
  rw [mem_eeprom hl s (by omega) (by omega), ha]
  rfl

/-- **C78.** A driver made on the mock of its camera (both crates built with or without overflow checks): every call
succeeds, in every session (in which the frame of the mock may be replaced and its status register changed between the
calls) - unless the driver was built with overflow checks and the supply voltage word of a frame is too far from its
reference. The mock never returns an error and never panics. -/
theorem C78_driver_works_on_mock (m m' : Mode) (s s' : Mock c) (d : Driver F (Mock c)) (n : Nat)
    (hd : (n = 24 ∧ c = .mlx90640 addr ∧ Driver.new640 m (mockBus m' c) s addr = (s', .ok d)) ∨
      (n = 12 ∧ c = .mlx90641 addr ∧ Driver.new641 m (mockBus m' c) s addr = (s', .ok d)))
    (hfit : SupplyFits m d.calib (mockMemory s)) (calls : List (Op F × Res (Err MockFailure MockFailure) Unit))
    (d1 : Driver F (Mock c)) (hx : Session ⟨m, n, mockBus m' c⟩ mockMemory (SupplyFits m d.calib) d calls d1) :
    (∀ call ∈ calls, call.2 = .ok ()) ∧ ∀ op : Op F, (op.exec ⟨m, n, mockBus m' c⟩ d1).2 = .ok () := by
  have hcam : MockOf d.calib.cam addr c := by
    rcases hd with ⟨rfl, rfl, hd⟩ | ⟨rfl, rfl, hd⟩
    · obtain ⟨_, c, _, hc⟩ := new_static (mock_static (Or.inl ⟨rfl, rfl⟩) m') hd
      refine Or.inl ⟨?_, rfl⟩
      rw [hc]; rfl
    · obtain ⟨_, c, _, hc⟩ := new_static (mock_static (Or.inr ⟨rfl, rfl⟩) m') hd
      refine Or.inr ⟨?_, rfl⟩
      rw [hc]; rfl
  exact C68_healthy_camera_works m (mockBus m' c) s s' addr d n
    (hd.imp (fun h => ⟨h.1, h.2.2⟩) (fun h => ⟨h.1, h.2.2⟩)) (mock_static hcam m') (mock_serves hcam m') hfit calls d1 hx

/-- **C78 (construction).** On the mock of its camera a driver can be made, whatever the registers and the RAM hold: for
an MLX90640 always (with overflow checks: when the sums of the EEPROM fit), for an MLX90641 exactly when every EEPROM word
that is decoded has at most one wrong bit (with overflow checks: and the offsets fit). -/
theorem C78_construction_on_mock (m m' : Mode) (addr : Byte) :
    (∀ s : Mock (.mlx90640 addr),
      (∃ s' d, Driver.new640 (F := F) m (mockBus m' _) s addr = (s', .ok d)) ↔
        m = .wrapping ∨ ∀ i < 768, Ee640.SumsFit (eepromWord s.eeprom.bytes) i) ∧
    (∀ s : Mock (.mlx90641 addr),
      (∃ s' d, Driver.new641 (F := F) m (mockBus m' _) s addr = (s', .ok d)) ↔
        ∃ D : Nat → BitVec 11,
          (∀ a ∈ Ee641.readAddresses 192, WithinOneBit (eepromWord s.eeprom.bytes a) (codeword (D a))) ∧
          (m = .wrapping ∨ Ee641.OffsetsFit (Ee641.widen D))) := by
  constructor
  · intro s
    have h : MockOf Mlx90640.cam addr (.mlx90640 addr) := Or.inl ⟨rfl, rfl⟩
    rw [(C68_construction (F := F) m _ s addr (mock_static h m')).1 (mock_serves h m')]
    have hs := mock_eeprom h s
    exact or_congr_right (forall_congr' fun i => imp_congr_right fun hi => (sumsFit_same hs hi).symm)
  · intro s
    have h : MockOf Mlx90641.cam addr (.mlx90641 addr) := Or.inr ⟨rfl, rfl⟩
    rw [(C68_construction (F := F) m _ s addr (mock_static h m')).2 (mock_serves h m')]
    have hs := mock_eeprom h s
    refine exists_congr fun D => and_congr_left fun _ => forall_congr' fun a => imp_congr_right fun ha => ?_
    have hb := readAddresses_bounds ha
    rw [hs a (by omega) hb.2.1]

/-! ### C80: the recent operations -/

/-- What survives the documented reads and the one of the EEPROM survives construction. -/
theorem new_survives {σ ER EW : Type} {Inv : σ → Prop} {C : Type} {fromData : List Byte → Res LibErr C}
    {toCalib : C → Calib F} {b : Bus σ ER EW} {n : Nat} {s s' : σ} {addr : Byte} {r : Res (Err ER EW) (Driver F σ)}
    (hr : SurvivesReads b cam addr Inv)
    (he : ∀ s buf, buf.length = 1664 → Inv s → Inv (b.writeRead s addr (toBe 0x2400#16) buf).1)
    (hd : Driver.new fromData toCalib b n s addr = (s', r)) (hi : Inv s) :
    Inv s' ∧ ∀ d, r = .ok d → Inv d.bus := by
  unfold Driver.new calibFromI2c Bus.read at hd
  have h1 := he s (List.replicate ((0x273F - 0x2400 + 1) * 2) 0#8) (by rw [List.length_replicate]) hi
  generalize b.writeRead s addr (toBe 0x2400#16) (List.replicate ((0x273F - 0x2400 + 1) * 2) 0#8) = q at h1 hd
  obtain ⟨s1, bytes, _ | e⟩ := q
  · simp only at hd h1
    cases hf : fromData bytes with
    | panic => rw [hf] at hd; simp only [Res.mapErr, Prod.mk.injEq] at hd; obtain ⟨rfl, rfl⟩ := hd; exact ⟨h1, fun _ hc => nomatch hc⟩
    | err e => rw [hf] at hd; simp only [Res.mapErr, Prod.mk.injEq] at hd; obtain ⟨rfl, rfl⟩ := hd; exact ⟨h1, fun _ hc => nomatch hc⟩
    | ok c =>
      rw [hf] at hd
      simp only [Res.mapErr] at hd
      unfold Driver.newWithCalibration at hd
      rw [readControl_eq] at hd
      have h2 := hr.regRead (reg := 0x800D#16) (Or.inr rfl) h1
      generalize regRead b s1 addr 0x800D#16 = q at h2 hd
      obtain ⟨s2, _ | w⟩ := q
      · simp only [Prod.mk.injEq] at hd
        obtain ⟨rfl, rfl⟩ := hd
        exact ⟨h2, fun _ hc => nomatch hc⟩
      · simp only [resolution_val, accessPattern_val, Res.ok_bind, Prod.mk.injEq] at hd
        obtain ⟨rfl, rfl⟩ := hd
        refine ⟨h2, fun d hd => ?_⟩
        cases hd
        exact h2
  · simp only [Prod.mk.injEq] at hd
    obtain ⟨rfl, rfl⟩ := hd
    exact ⟨h1, fun _ hc => nomatch hc⟩

/-- The newest 32 of the recorded transactions, followed by what was noted before. -/
def Noted {ER EW : Type} (before : List MockOp) (s : Mock c × List (Txn ER EW)) : Prop :=
  s.1.recent = ((s.2.map operationOf).reverse ++ before).take 32

theorem noted_step {ER EW : Type} {before : List MockOp} {s s' : Mock c × List (Txn ER EW)} (hi : Noted before s)
    {t : Txn ER EW} (op : MockOp) (h2 : s'.2 = s.2 ++ [t]) (h3 : operationOf t = op)
    (h1 : s'.1.recent = (op :: s.1.recent).take 32) : Noted before s' := by
  unfold Noted
  rw [h1, h2, hi, List.map_append, List.reverse_append]
  subst h3
  show List.take (31 + 1) (_ :: List.take (31 + 1) _) = List.take (31 + 1) (operationOf t :: _)
  rw [List.take_succ_cons, List.take_succ_cons, List.take_take]
  rfl

theorem noted_read (h : MockOf cam addr c) (m : Mode) (before : List MockOp) (s : Mock c × List (Txn MockFailure MockFailure))
    (base : Word) (buf : List Byte) (hd : MockReadable cam base buf.length) (hi : Noted before s) :
    Noted before ((recorded (mockBus m c)).writeRead s addr (toBe base) buf).1 := by
  obtain ⟨hl, _, hadr⟩ := layout_of h
  rcases mock_read hl m s.1 addr (toBe base) buf with ⟨_, h2⟩ | ⟨ha, hpos, base', hb, h1⟩
  · obtain ⟨r, hr⟩ := (get_iff h m s.1 base hd.1).2 hd
    exact absurd ⟨hadr.symm, hd.1, base, r, rfl, hr⟩ h2
  · obtain rfl := toBe_inj hb
    refine noted_step hi (.read base buf.length) rfl ?_ ?_
    · unfold operationOf
      show MockOp.read (wordAt (toBe base) 0) _ = _
      rw [wordAt_toBe]
    · show ((mockBus m c).writeRead s.1 addr (toBe base) buf).1.recent = _
      rw [h1]
      rfl

theorem noted_edits (h : MockOf cam addr c) (m : Mode) (before : List MockOp) :
    SurvivesEdits (recorded (mockBus m c)) cam addr (Noted before) (fun r w s => mockMemory s.1 r = w) where
  read s base buf hd hi := by
    refine noted_read h m before s base buf ?_ hi
    rcases hd with ⟨h1, h2⟩ | ⟨h1, h2, h3, h4⟩
    · exact ⟨by omega, by omega, Or.inr (Or.inr ⟨h1, h2.imp id Or.inl⟩)⟩
    · exact ⟨h1, h2, Or.inl ⟨h3, h4⟩⟩
  keeps r w s base buf _ hm := by
    show mockMemory ((mockBus m c).writeRead s.1 addr (toBe base) buf).1 r = _
    rw [(mock_static h m).read_mem]; exact hm
  knows s r w _ _ hw := by
    obtain ⟨h1, h2⟩ := static_regRead (static_recorded (mock_static h m)) s r
    rw [h2 w hw]
    exact congrFun h1 r
  write s reg w w' hr hm hb hi := by
    subst hm
    have hok := (mock_serves h m).write s.1 reg w' hr hb
    obtain ⟨_, _, h3⟩ := C79_mock_writes h m s.1 addr (toBe reg ++ toBe w')
    obtain ⟨_, reg', payload, h4, h5, _⟩ := h3 hok
    obtain ⟨rfl, rfl⟩ : reg' = reg ∧ payload = toBe w' := by
      have := List.append_inj h4.symm rfl
      exact ⟨toBe_inj this.1, this.2⟩
    refine noted_step hi (.write reg' 2) rfl ?_ h5
    show MockOp.write (wordAt (toBe reg' ++ toBe w') 0) 2 = _
    rw [show wordAt (toBe reg' ++ toBe w') 0 = reg' from wordAt_toBe reg']

/-- **C80.** The recent operations of a mock after a driver was made on it and has run any history, successful or not:
the newest 32 transactions of the driver, newest first, and then what the mock had noted before. -/
theorem C80_recent_operations (m m' : Mode) (s : Mock c) (s' : Mock c × List (Txn MockFailure MockFailure))
    (d : Driver F (Mock c × List (Txn MockFailure MockFailure))) (n : Nat)
    (hd : (n = 24 ∧ c = .mlx90640 addr ∧ Driver.new640 m (recorded (mockBus m' c)) (s, []) addr = (s', .ok d)) ∨
      (n = 12 ∧ c = .mlx90641 addr ∧ Driver.new641 m (recorded (mockBus m' c)) (s, []) addr = (s', .ok d)))
    (hq : s.recent.length ≤ 32) (history : List (Op F)) :
    let b := (runOps ⟨m, n, recorded (mockBus m' c)⟩ history d).bus
    b.1.recent = ((b.2.map operationOf).reverse ++ s.recent).take 32 := by
  have heep : ∀ (cam : Cam), MockOf cam addr c → ∀ (s1 : Mock c × List (Txn MockFailure MockFailure)) (buf : List Byte),
      buf.length = 1664 → Noted s.recent s1 →
      Noted s.recent ((recorded (mockBus m' c)).writeRead s1 addr (toBe 0x2400#16) buf).1 := by
    intro cam hcam s1 buf hb hi
    refine noted_read hcam m' _ s1 _ buf ?_ hi
    rw [hb]
    exact ⟨by decide, by decide, Or.inr (Or.inl (by decide))⟩
  have hi0 : Noted s.recent ((s, []) : Mock c × List (Txn MockFailure MockFailure)) := by
    unfold Noted
    rw [List.map_nil, List.reverse_nil, List.nil_append, List.take_of_length_le hq]
  have hsup : Supported (⟨m, n, recorded (mockBus m' c)⟩ : Env _ MockFailure MockFailure) d ∧ d.addr = addr := by
    rcases hd with ⟨rfl, _, hd⟩ | ⟨rfl, _, hd⟩
    · exact (C39_constructed_drivers_supported m _ _ addr).1 s' d hd
    · exact (C39_constructed_drivers_supported m _ _ addr).2 s' d hd
  have hcam : MockOf d.calib.cam addr c ∧ Noted s.recent d.bus := by
    rcases hd with ⟨rfl, rfl, hd⟩ | ⟨rfl, rfl, hd⟩
    · have hc : MockOf Mlx90640.cam addr (.mlx90640 addr) := Or.inl ⟨rfl, rfl⟩
      obtain ⟨_, c, _, hcal⟩ := new_static (static_recorded (mock_static hc m')) hd
      refine ⟨Or.inl ⟨?_, rfl⟩, (new_survives (noted_edits hc m' _).read (heep _ hc) hd hi0).2 d rfl⟩
      rw [hcal]; rfl
    · have hc : MockOf Mlx90641.cam addr (.mlx90641 addr) := Or.inr ⟨rfl, rfl⟩
      obtain ⟨_, c, _, hcal⟩ := new_static (static_recorded (mock_static hc m')) hd
      refine ⟨Or.inr ⟨?_, rfl⟩, (new_survives (noted_edits hc m' _).read (heep _ hc) hd hi0).2 d rfl⟩
      rw [hcal]; rfl
  have hedits := noted_edits hcam.1 m' s.recent
  rw [← hsup.2] at hedits
  exact runOps_edits (env := ⟨m, n, recorded (mockBus m' c)⟩) hsup.1 hedits history hcam.2

/-- **C80 (bound).** No transaction with a mock, and no other method of it, makes the queue of recent operations longer
than 32. -/
theorem C80_queue_bounded (h : MockOf cam addr c) (m : Mode) (s : Mock c) (hq : s.recent.length ≤ 32) :
    (∀ a sent buf, ((mockBus m c).writeRead s a sent buf).1.recent.length ≤ 32) ∧
    (∀ a sent, ((mockBus m c).write s a sent).1.recent.length ≤ 32) ∧
    (∀ ram status s', s.updateFrame ram status = .ok s' → s'.recent.length ≤ 32) ∧
    (∀ v, (s.setDataAvailable v).recent.length ≤ 32) ∧ s.clearRecentOperations.recent = [] := by
  obtain ⟨hl, _, hadr⟩ := layout_of h
  refine ⟨fun a sent buf => ?_, fun a sent => ?_, fun ram status s' hs => ?_, fun v => hq, rfl⟩
  · rcases mock_read hl m s a sent buf with ⟨⟨f, h1⟩, _⟩ | ⟨_, _, base, _, h1⟩
    · rw [h1]; exact hq
    · rw [h1]; exact (List.length_take_le ..)
  · obtain ⟨h1, _, h2⟩ := C79_mock_writes h m s a sent
    by_cases hc : ((mockBus m c).write s a sent).2 = none
    · obtain ⟨_, reg, payload, _, h3, _⟩ := h2 hc
      rw [h3]; exact (List.length_take_le ..)
    · rw [h1 hc]; exact hq
  · unfold Mock.updateFrame Bytes.copyFrom at hs
    split at hs
    · rw [Res.ok_bind] at hs
      split at hs
      · cases hs; exact hq
      · cases hs
    · cases hs

/-! ### C81: new frames -/

/-- **C81 (`update_frame`).** It panics exactly when a slice has a wrong length; otherwise the RAM and the status register
hold the given bytes, and nothing else changes. -/
theorem C81_update_frame (h : MockOf cam addr c) (s : Mock c) (ram status : List Byte) :
    ((∃ s', s.updateFrame ram status = .ok s') ↔ ram.length = 2 * (ramEnd cam - 0x0400) ∧ status.length = 2) ∧
    (∀ e, s.updateFrame ram status ≠ .err e) ∧
    ∀ s', s.updateFrame ram status = .ok s' → s'.recent = s.recent ∧ ∀ a, mockMemory s' a =
      if 0x0400 ≤ a.toNat ∧ a.toNat < ramEnd cam then wordAt ram (a.toNat - 0x0400)
      else if a = 0x8000#16 then wordAt status 0 else mockMemory s a := by
  obtain ⟨hl, hram, hadr⟩ := layout_of h
  have hlen : c.ramLength = 2 * (ramEnd cam - 0x0400) := by rw [hl.length]; omega
  unfold Mock.updateFrame Bytes.copyFrom
  by_cases h1 : ram.length = c.ramLength
  · rw [dif_pos h1, Res.ok_bind]
    by_cases h2 : status.length = 2
    · rw [dif_pos h2, Res.ok_bind]
      refine ⟨⟨fun _ => ⟨h1.trans hlen, h2⟩, fun _ => ⟨_, rfl⟩⟩, fun _ hc => (nomatch hc), ?_⟩
      intro s' hs
      cases hs
      refine ⟨rfl, fun a => ?_⟩
      unfold mockMemory
      dsimp only
      have hhalf : 0x0400 + c.ramLength / 2 = ramEnd cam := by omega
      rw [hhalf]
      by_cases ha : 0x0400 ≤ a.toNat ∧ a.toNat < ramEnd cam
      · rw [if_pos ha, if_pos ha]
      · rw [if_neg ha, if_neg ha, if_neg ha]
        by_cases hr : a = 0x8000#16
        · subst hr
          rw [if_neg (by decide), if_pos rfl, if_pos rfl]
        · simp only [if_neg hr]
    · rw [dif_neg h2]
      exact ⟨⟨fun ⟨_, hc⟩ => (nomatch hc), fun hc => absurd hc.2 h2⟩, fun _ hc => (nomatch hc), fun _ hc => (nomatch hc)⟩
  · rw [dif_neg h1]
    exact ⟨⟨fun ⟨_, hc⟩ => (nomatch hc), fun hc => absurd (hc.1.trans hlen.symm) h1⟩, fun _ hc => (nomatch hc),
      fun _ hc => (nomatch hc)⟩

theorem splice_one (x : Bytes 2) (v : Byte) : wordAt (x.splice 1 [v]).bytes 0 = be16 (x.1.getD 0 0#8) v := by
  obtain ⟨l, hl⟩ := x
  match l, hl with
  | [a, b], _ => rfl

/-- **C81 (`set_data_available`).** It changes the status register only. `true` sets the flag and leaves the other bits;
`false` clears the flag - and, unlike documented, bits 4 to 7, so the overwrite setting is lost. -/
theorem C81_set_data_available (h : MockOf cam addr c) (s : Mock c) (v : Bool) :
    (s.setDataAvailable v).recent = s.recent ∧
    (∀ a, a ≠ 0x8000#16 → mockMemory (s.setDataAvailable v) a = mockMemory s a) ∧
    (∀ i, (mockMemory (s.setDataAvailable v) 0x8000#16).getLsbD i =
      if i = 3 then v else if v = false ∧ 4 ≤ i ∧ i ≤ 7 then false else (mockMemory s 0x8000#16).getLsbD i) := by
  obtain ⟨hl, hram, hadr⟩ := layout_of h
  refine ⟨rfl, fun a ha => ?_, fun i => ?_⟩
  · unfold mockMemory
    rw [if_neg ha, if_neg ha]
    rfl
  · rw [mem_register hl _ (by decide), mem_register hl _ (by decide), if_pos rfl, if_pos rfl]
    unfold Mock.setDataAvailable
    dsimp only
    rw [splice_one]
    unfold wordAt
    show (be16 (s.status.1.getD 0 0#8) _).getLsbD i = if i = 3 then v else if _ then false else
      (be16 (s.status.1.getD 0 0#8) (s.status.1.getD 1 0#8)).getLsbD i
    generalize s.status.1.getD 0 0#8 = hi
    generalize s.status.1.getD 1 0#8 = lo
    unfold be16
    rw [BitVec.getLsbD_append, BitVec.getLsbD_append]
    by_cases h8 : i < 8
    · simp only [if_pos h8]
      cases v
      · simp only [Bool.false_eq_true, if_false, BitVec.getLsbD_and]
        have hm : (0x07#8 : Byte).getLsbD i = decide (i < 3) := by
          obtain rfl | rfl | rfl | rfl | rfl | rfl | rfl | rfl :
            i = 0 ∨ i = 1 ∨ i = 2 ∨ i = 3 ∨ i = 4 ∨ i = 5 ∨ i = 6 ∨ i = 7 := by omega
          all_goals rfl
        rw [hm]
        by_cases h3 : i < 3
        · rw [if_neg (by omega), if_neg (by omega)]; simp [h3]
        · simp only [decide_eq_false h3, Bool.and_false]
          split
          · rfl
          · rw [if_pos ⟨trivial, by omega, by omega⟩]
      · simp only [if_true, BitVec.getLsbD_or]
        have hm : (0x08#8 : Byte).getLsbD i = decide (i = 3) := by
          obtain rfl | rfl | rfl | rfl | rfl | rfl | rfl | rfl :
            i = 0 ∨ i = 1 ∨ i = 2 ∨ i = 3 ∨ i = 4 ∨ i = 5 ∨ i = 6 ∨ i = 7 := by omega
          all_goals rfl
        rw [hm]
        by_cases h3 : i = 3
        · simp [h3]
        · simp [h3]
    · simp only [if_neg h8]
      rw [if_neg (by omega), if_neg (by omega)]

theorem ramEnd_below (h : MockOf cam addr c) : ramEnd cam ≤ 0x0800 := by
  rcases h with ⟨rfl, _⟩ | ⟨rfl, _⟩ <;> decide

/-- **C81 (in a session).** Replacing the frame of the mock between calls, and setting or clearing its new-data flag, is
something a camera that measures may do: what is true of every session (as C66, C75 and C78) is true when a test does this
to the mock between its calls. -/
theorem C81_frames_in_sessions (h : MockOf cam addr c) (m m' : Mode) (n : Nat) (frame : (Word → Word) → Prop)
    (d d1 : Driver F (Mock c)) (calls : List (Op F × Res (Err MockFailure MockFailure) Unit))
    (hx : Session ⟨m, n, mockBus m' c⟩ mockMemory frame d calls d1) :
    (∀ ram status s', d1.bus.updateFrame ram status = .ok s' → frame (mockMemory s') →
      Session ⟨m, n, mockBus m' c⟩ mockMemory frame d calls { d1 with bus := s' }) ∧
    ∀ v, frame (mockMemory (d1.bus.setDataAvailable v)) →
      Session ⟨m, n, mockBus m' c⟩ mockMemory frame d calls { d1 with bus := d1.bus.setDataAvailable v } := by
  constructor
  · intro ram status s' hu hf
    refine .measurement s' hx (fun a ha => ?_) hf
    rw [((C81_update_frame h d1.bus ram status).2.2 s' hu).2 a, if_neg, if_neg]
    · intro hc; exact ha (Or.inr hc)
    · intro hc; exact ha (Or.inl ⟨hc.1, lt_of_lt_of_le hc.2 (ramEnd_below h)⟩)
  · intro v hf
    refine .measurement _ hx (fun a ha => ?_) hf
    exact (C81_set_data_available h d1.bus v).2.1 a fun hc => ha (Or.inr hc)

/-- **C81 (the driver sees it).** On a bus with a mock at the driver's address, `data_available` after
`set_data_available(v)` returns the subpage of bit 0 of the status register when `v`, and otherwise nothing. -/
theorem C81_driver_sees_flag (h : MockOf cam addr c) (m m' : Mode) (n : Nat) (d : Driver F (Mock c)) (ha : d.addr = addr)
    (v : Bool) :
    (Driver.dataAvailable ⟨m, n, mockBus m' c⟩ { d with bus := d.bus.setDataAvailable v }).2 =
      .ok (if v = true then some (if (mockMemory d.bus 0x8000#16).getLsbD 0 then .one else .zero) else none) := by
  obtain ⟨_, _, hbits⟩ := C81_set_data_available h d.bus v
  have hstat := (static_regRead (mock_static h m') (d.bus.setDataAvailable v) 0x8000#16).2
  have hserve : ∃ w, (regRead (mockBus m' c) (d.bus.setDataAvailable v) addr 0x8000#16).2 = .ok w := by
    unfold regRead
    dsimp only
    rw [(mock_serves h m').read _ 0x8000#16 [0#8, 0#8] (Or.inl ⟨rfl, Or.inl rfl⟩)]
    exact ⟨_, rfl⟩
  obtain ⟨w, hw⟩ := hserve
  have hw' := hstat w hw
  have h0 := hbits 0
  have h3 := hbits 3
  rw [← hw'] at h0 h3
  rw [if_pos rfl] at h3
  rw [if_neg (by decide), if_neg (by omega)] at h0
  unfold Driver.dataAvailable
  rw [dm_bind, statusRegister_eq]
  dsimp only
  rw [ha, hw]
  dsimp only
  rw [status_newData]
  show (match (if w.getLsbD 3 = true then _ else _ : DM F (Mock c) MockFailure MockFailure (Option Subpage)) _ with
    | (d, r) => (d, r)).2 = _
  rw [h3, ← h0]
  cases v
  · rfl
  · simp only [if_true]
    rw [dm_bind]
    simp only [DM.lift, status_subpage]
    rfl

/-! ### What the mock does not check -/

theorem eeprom_one_word (h : MockOf cam addr c) (m : Mode) (s : Mock c) (k : Nat) (hk : k < 4) (v : Word) :
    s.set m (BitVec.ofNat 16 (0x240C + k)) (toBe v) =
      (slice Mock.eepromMask (k * 2) 2 >>= fun mask =>
        match firstRefused 0 [wordAt s.eeprom.1 (12 + k)] (words mask) [v] with
        | some (index, word) => .err (.illegalWriteValue (BitVec.ofNat 16 (0x240C + k) + BitVec.ofNat 16 index) word)
        | none => .ok { s with eeprom := s.eeprom.splice ((12 + k) * 2) (toBe v) }) := by
  obtain ⟨hl, hram, hadr⟩ := layout_of h
  have hn : (BitVec.ofNat 16 (0x240C + k)).toNat = 0x240C + k := by
    rw [BitVec.toNat_ofNat, Nat.mod_eq_of_lt (by omega)]
  have hlen := s.eeprom.2
  have hhigh := hl.high
  unfold Mock.set
  dsimp only
  rw [hn, hl.rom, hl.ram, hl.eeprom, arithU16_ok m (by show 0x240C + k + 2 % 65536 / 2 ≤ 65535; omega), Res.ok_bind,
    if_neg (by unfold inRange; dsimp only; omega), if_pos (by unfold inRange; dsimp only; omega)]
  unfold Mock.setEeprom
  dsimp only
  rw [hn, hl.eeprom, subU16_ok m (show 0x2400 ≤ 0x240C + k from le_trans (by norm_num) (Nat.le_add_right 0x240C k)), Res.ok_bind,
    subU16_ok m (Nat.le_add_right 0x240C k)]
  have e1 : 0x240C + k - 0x2400 = 12 + k := Nat.sub_eq_of_eq_add (by omega)
  have e2 : 0x240C + k - 0x240C = k := Nat.add_sub_cancel_left ..
  rw [e1, e2]
  unfold slice
  rw [if_pos (by rw [hlen]; show _ ∧ (12 + k) * 2 + 2 ≤ 1664; omega), Res.ok_bind, Res.ok_bind]
  have hw : words ((s.eeprom.1.drop ((12 + k) * 2)).take ((12 + k) * 2 + (toBe v).length - (12 + k) * 2)) =
      [wordAt s.eeprom.1 (12 + k)] := by
    have h2 : ((s.eeprom.1.drop ((12 + k) * 2)).take ((12 + k) * 2 + (toBe v).length - (12 + k) * 2)).length = 2 := by
      rw [List.length_take, List.length_drop, hlen, Nat.add_sub_cancel_left]
      show min 2 _ = 2
      omega
    obtain ⟨w, hw⟩ := two_list h2
    have hs := wordAt_sub s.eeprom.1 (12 + k) 2 0 (by omega)
    rw [Nat.mul_comm] at hs
    rw [show (toBe v).length = 2 from rfl, Nat.add_sub_cancel_left] at hw ⊢
    rw [hw] at hs ⊢
    rw [wordAt_toBe, Nat.add_zero] at hs
    rw [← hs]
    show [be16 (hiByte w) (loByte w)] = _
    rw [be16_toBe]
  have hv : words (toBe v) = [v] := by
    show [be16 (hiByte v) (loByte v)] = _
    rw [be16_toBe]
  rw [hw, hv]
  rfl

theorem write_of_set (h : MockOf cam addr c) (m : Mode) (s : Mock c) (reg : Word) (payload : List Byte)
    (hr : 0x2400 ≤ reg.toNat ∧ reg.toNat ≤ 0x273F) :
    ((mockBus m c).write s addr (toBe reg ++ payload)).2 = match s.set m reg payload with
      | .ok _ => none | .err e => some (.error e) | .panic => some .panic := by
  obtain ⟨hl, hram, hadr⟩ := layout_of h
  unfold mockBus Mock.write
  dsimp only
  rw [if_neg (not_not.2 hadr.symm), extract_toBe, if_pos (Or.inr (Or.inr (Or.inl (by rw [hl.eeprom]; exact hr)))), Res.ok_bind]
  show (match (s.set m reg payload >>= fun s => _ : Res MockErr (Mock c)) with
    | .ok s => (s, none) | .err e => _ | .panic => _).2 = _
  cases s.set m reg payload <;> rfl

/-- **C79 (one configuration word of the EEPROM).** The mock compares the first one with its mask; it accepts any value
for the second one although all of its bits are protected; it panics for the other two. -/
theorem C79_mock_eeprom_words (h : MockOf cam addr c) (m : Mode) (s : Mock c) (v : Word) :
    (((mockBus m c).write s addr (toBe 0x240C#16 ++ toBe v)).2 = none ↔
      OnlyBits (UnprotectedEeprom 0) (mockMemory s 0x240C#16) v) ∧
    ((mockBus m c).write s addr (toBe 0x240D#16 ++ toBe v)).2 = none ∧
    ((mockBus m c).write s addr (toBe 0x240E#16 ++ toBe v)).2 = some .panic ∧
    ((mockBus m c).write s addr (toBe 0x240F#16 ++ toBe v)).2 = some .panic := by
  obtain ⟨hl, hram, hadr⟩ := layout_of h
  have w := fun (k : Nat) (hk : k < 4) => eeprom_one_word h m s k hk v
  refine ⟨?_, ?_, ?_, ?_⟩
  · rw [write_of_set h m s _ _ (by decide), show (0x240C#16 : Word) = BitVec.ofNat 16 (0x240C + 0) from rfl, w 0 (by decide)]
    have hm : mockMemory s (BitVec.ofNat 16 (0x240C + 0)) = wordAt s.eeprom.1 12 := mem_eeprom hl s (by decide) (by decide)
    rw [hm, ← OnlyBits.congr (eepromMask_bits 0 (by decide)), ← check_iff]
    have hsl : slice (ε := MockErr) Mock.eepromMask (0 * 2) 2 = .ok [0x1F#8, 0xFF#8] := rfl
    have hwm : words [0x1F#8, 0xFF#8] = [wordAt Mock.eepromMask 0] := rfl
    rw [hsl, Res.ok_bind, hwm, Nat.add_zero]
    unfold firstRefused
    cases checkNewAgainstMask (wordAt s.eeprom.1 12) (wordAt Mock.eepromMask 0) v
    · exact ⟨fun hc => (nomatch hc), fun hc => (nomatch hc)⟩
    · exact ⟨fun _ => rfl, fun _ => rfl⟩
  · rw [write_of_set h m s _ _ (by decide), show (0x240D#16 : Word) = BitVec.ofNat 16 (0x240C + 1) from rfl, w 1 (by decide)]
    rfl
  · rw [write_of_set h m s _ _ (by decide), show (0x240E#16 : Word) = BitVec.ofNat 16 (0x240C + 2) from rfl, w 2 (by decide)]
    rfl
  · rw [write_of_set h m s _ _ (by decide), show (0x240F#16 : Word) = BitVec.ofNat 16 (0x240C + 3) from rfl, w 3 (by decide)]
    rfl

/-! ### The hypotheses can be met -/

/-- A mock of an MLX90640 with the EEPROM of the datasheet's worked example, every word of the RAM 0xCCC5, a new frame of
subpage 1 being available, configured as after reset, and with one noted operation. -/
def exampleMock : Mock (.mlx90640 0x33#8) where
  eeprom := ⟨example640, by unfold example640; rw [dump_length]⟩
  ram := ⟨(List.replicate 832 [0xCC#8, 0xC5#8]).flatten, by decide +kernel⟩
  status := ⟨[0x00#8, 0x09#8], rfl⟩
  control := ⟨[0x19#8, 0x01#8], rfl⟩
  i2cConfig := ⟨[0x00#8, 0x00#8], rfl⟩
  recent := [.write 0x800D#16 2]

theorem exampleMock_eeprom : exampleMock.eeprom.bytes = example640 := by
  unfold exampleMock
  with_reducible rfl

theorem exampleMock_fits : ∀ i < 768, Ee640.SumsFit (eepromWord exampleMock.eeprom.bytes) i := by
  rw [exampleMock_eeprom]
  exact example640_fits

theorem exampleMock_vdd : mockMemory exampleMock 0x072A#16 = 0xCCC5#16 := by decide +kernel

/-- A driver can be made on this mock in every build, and every call on it succeeds in every session, images of real
numbers included. -/
example (m m' : Mode) :
    ∃ s' d, Driver.new640 m (mockBus m' _) exampleMock 0x33#8 = (s', .ok d) ∧
      ∀ calls (d1 : Driver ℝ _), Session ⟨m, 24, mockBus m' _⟩ mockMemory (SupplyFits m d.calib) d calls d1 →
        (∀ call ∈ calls, call.2 = .ok ()) ∧ ∀ op : Op ℝ, (op.exec ⟨m, 24, mockBus m' _⟩ d1).2 = .ok () := by
  obtain ⟨s', d, hd⟩ := ((C78_construction_on_mock (F := ℝ) m m' 0x33#8).1 exampleMock).2 (Or.inr exampleMock_fits)
  refine ⟨s', d, hd, C78_driver_works_on_mock (addr := 0x33#8) m m' exampleMock s' d 24 (Or.inl ⟨rfl, rfl, hd⟩) (Or.inr ?_)⟩
  have hm : MockOf Mlx90640.cam 0x33#8 (.mlx90640 0x33#8) := Or.inl ⟨rfl, rfl⟩
  obtain ⟨_, c, hc, hcal⟩ := new_static (mock_static hm m') hd
  have hreg : Ee640.Regular (eepromWord (memBytes (mockMemory exampleMock) 0x2400#16 1664)) := by
    refine SameEeprom.regular (E := fun a => BitVec.ofNat 16 (words640 (a - 0x2400))) ?_ (by decide +kernel)
    intro a h1 h2
    rw [eepromWord_memBytes _ h1 h2, ← mock_eeprom hm exampleMock a h1 h2]
    obtain ⟨k, rfl⟩ := Nat.exists_eq_add_of_le h1
    dsimp only
    rw [Nat.add_sub_cancel_left, exampleMock_eeprom]
    exact (eepromWord_dump words640 k (by omega)).symm
  have hvdd : d.calib.vdd25 = -13056 := by
    rw [hcal, C66_table_640 m _ c hc hreg]
    show ((bitsAt (eepromWord (memBytes (mockMemory exampleMock) 0x2400#16 1664) 0x2433) 0 8 : Int) - 256) * 2 ^ 5 - 2 ^ 13 = -13056
    rw [eepromWord_memBytes _ (by decide) (by decide), ← mock_eeprom hm exampleMock 0x2433 (by decide) (by decide)]
    rw [exampleMock_eeprom, show eepromWord example640 0x2433 = 0x9d68#16 from (eepromWord_dump words640 51 (by decide)).trans (by decide)]
    decide +kernel
  have hcam : d.calib.cam = Mlx90640.cam := by rw [hcal]; rfl
  rw [hcam, hvdd]
  show Fits16 ((mockMemory exampleMock 0x072A#16).toInt - -13056)
  rw [exampleMock_vdd]
  decide +kernel

/-- After construction on this mock its recent operations are the read of the control register, the one of the EEPROM,
and the one noted before. -/
example (m m' : Mode) : ∃ s' d, Driver.new640 (F := ℝ) m (recorded (mockBus m' _)) (exampleMock, []) 0x33#8 = (s', .ok d) ∧
    d.bus.1.recent = [.read 0x800D#16 2, .read 0x2400#16 1664, .write 0x800D#16 2] := by
  have hm : MockOf Mlx90640.cam 0x33#8 (.mlx90640 0x33#8) := Or.inl ⟨rfl, rfl⟩
  have hv := mock_serves hm m'
  have hser : Serves (recorded (mockBus m' _)) Mlx90640.cam 0x33#8 (fun s => mockMemory s.1) :=
    ⟨fun s => hv.read s.1, fun s => hv.write s.1, fun s => hv.eeprom s.1⟩
  obtain ⟨s', d, hd⟩ := ((C68_construction (F := ℝ) m _ (exampleMock, []) 0x33#8 (static_recorded (mock_static hm m'))).1 hser).2
    (Or.inr fun i hi => (sumsFit_same (mock_eeprom hm exampleMock) hi).1 (exampleMock_fits i hi))
  refine ⟨s', d, hd, ?_⟩
  have h80 := C80_recent_operations (addr := 0x33#8) m m' exampleMock s' d 24 (Or.inl ⟨rfl, rfl, hd⟩) (by decide) []
  dsimp only at h80
  change d.bus.1.recent = ((d.bus.2.map operationOf).reverse ++ exampleMock.recent).take 32 at h80
  rw [h80]
  unfold Driver.new640 at hd
  obtain ⟨s1, eeprom, ts, outcome, h1, h2⟩ := C39_construction (F := ℝ) (Mlx90640.fromData m) Mlx90640.Calibration.toCalib (mockBus m' _) _ (exampleMock, []) 0x33#8
  rw [h1] at hd
  simp only [Prod.mk.injEq] at hd
  obtain ⟨_, rfl⟩ := hd
  cases eeprom with
  | error e => simp at h2
  | ok bytes =>
    obtain ⟨_, h2⟩ := h2
    cases hf : Mlx90640.fromData (F := ℝ) m bytes with
    | err e => rw [hf] at h2; exact (nomatch h2.2)
    | panic => rw [hf] at h2; exact (nomatch h2.2)
    | ok c =>
      rw [hf] at h2
      obtain ⟨control, hts, h3⟩ := h2
      cases control with
      | error e => exact (nomatch h3)
      | ok w =>
        obtain ⟨d', hd', hb, _⟩ := h3
        cases hd'
        rw [hb, hts]
        rfl

end Mlx.Props
