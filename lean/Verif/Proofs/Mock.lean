import Verif.Spec.Mock
import Verif.Proofs.Static
/-
The mock camera: what its accesses do to the memory it mocks.
-/
set_option linter.unusedSectionVars false
set_option autoImplicit false
namespace Mlx.Proofs
open Mlx Mlx.Spec
variable {c : MockConfig} {e : Nat}

/-- The ranges of the mocks. -/
structure Layout (c : MockConfig) (e : Nat) : Prop where
  rom : c.romRange = (0, 0x03FF)
  ram : c.ramRange = (0x0400, e)
  eeprom : c.eepromRange = (0x2400, 0x273F)
  registers : c.registerRange = (0x8000, 0x8016)
  low : 0x0400 ≤ e
  high : e < 0x0800
  length : c.ramLength = (e + 1 - 0x0400) * 2

theorem layout640 (addr : Byte) : Layout (.mlx90640 addr) 0x073F := ⟨rfl, rfl, rfl, rfl, by decide, by decide, rfl⟩
theorem layout_of {cam : Cam} {addr : Byte} (h : MockOf cam addr c) :
    Layout c (ramEnd cam - 1) ∧ 0x0400 < ramEnd cam ∧ c.i2cAddress = addr := by
  rcases h with ⟨rfl, rfl⟩ | ⟨rfl, rfl⟩
  · exact ⟨⟨rfl, rfl, rfl, rfl, by decide, by decide, rfl⟩, by decide, rfl⟩
  · exact ⟨⟨rfl, rfl, rfl, rfl, by decide, by decide, rfl⟩, by decide, rfl⟩

theorem layout641 (addr : Byte) : Layout (.mlx90641 addr) 0x05BF := ⟨rfl, rfl, rfl, rfl, by decide, by decide, rfl⟩

theorem hiByte_be16 (a b : Byte) : hiByte (be16 a b) = a := by
  have := toBe_be16 a b
  unfold toBe at this
  injection this

theorem loByte_be16 (a b : Byte) : loByte (be16 a b) = b := by
  have := toBe_be16 a b
  unfold toBe at this
  injection this with _ h
  injection h

theorem two_eq (x : Bytes 2) : x.1 = toBe (wordAt x.1 0) := by
  obtain ⟨l, h⟩ := x
  match l, h with
  | [a, b], _ =>
    show [a, b] = toBe (be16 a b)
    rw [toBe_be16]

theorem toWord_eq (x : Bytes 2) : x.toWord = wordAt x.1 0 := rfl

theorem wordAt_toBe (w : Word) : wordAt (toBe w) 0 = w := be16_toBe w

theorem slice_ok {ε : Type} {l out : List Byte} {a b : Nat} (h : slice (ε := ε) l a b = .ok out) :
    a ≤ b ∧ b ≤ l.length ∧ out = (l.drop a).take (b - a) := by
  unfold slice at h
  split at h
  · rename_i hc
    exact ⟨hc.1, hc.2, by injection h with h; exact h.symm⟩
  · cases h

theorem subU16_ok {ε : Type} (m : Mode) {a b : Nat} (h : b ≤ a) : subU16 (ε := ε) m a b = .ok (a - b) := if_pos h

/-- A block of words at addresses from `lo` on, read from `start` on. -/
theorem block_bytes {lo start count : Nat} {data out : List Byte} {M : Word → Word} {base : Word}
    (hs : base.toNat = start) (hlo : lo ≤ start) (hhi : lo + data.length / 2 ≤ 65536)
    (hfit : (start - lo) * 2 + count ≤ data.length)
    (hout : out = (data.drop ((start - lo) * 2)).take count)
    (hM : ∀ a : Word, lo ≤ a.toNat → a.toNat < lo + data.length / 2 → M a = wordAt data (a.toNat - lo)) (heven : count % 2 = 0) :
    out = memBytes M base count := by
  have hl : out.length = count := by
    rw [hout, List.length_take, List.length_drop]; omega
  apply List.ext_getElem?
  intro i
  by_cases hi : i < count
  · rw [memBytes_get _ _ _ _ hi, hout, List.getElem?_take, if_pos hi, List.getElem?_drop]
    have ha : (base + BitVec.ofNat 16 (i / 2)).toNat = start + i / 2 := by
      rw [BitVec.toNat_add, BitVec.toNat_ofNat, hs]
      omega
    have hm := hM (base + BitVec.ofNat 16 (i / 2)) (by omega) (by omega)
    rw [hm, ha]
    unfold wordAt
    rw [hiByte_be16, loByte_be16]
    have hget : ∀ k, k < data.length → data[k]? = some (data.getD k 0#8) := by
      intro k hk
      rw [List.getD_eq_getElem?_getD, List.getElem?_eq_getElem hk]
      rfl
    rw [hget _ (by omega)]
    by_cases h2 : i % 2 = 0
    · rw [if_pos h2]
      congr 2
      omega
    · rw [if_neg h2]
      congr 2
      omega
  · rw [List.getElem?_eq_none (by omega), List.getElem?_eq_none (by rw [memBytes, List.length_map, List.length_range]; omega)]

theorem mem_ram (h : Layout c e) (s : Mock c) {a : Word} (h1 : 0x0400 ≤ a.toNat) (h2 : a.toNat ≤ e) :
    mockMemory s a = wordAt s.ram.1 (a.toNat - 0x0400) := by
  have := h.length; have := h.low
  exact if_pos ⟨h1, by omega⟩

theorem mem_eeprom (h : Layout c e) (s : Mock c) {a : Word} (h1 : 0x2400 ≤ a.toNat) (h2 : a.toNat < 0x2740) :
    mockMemory s a = wordAt s.eeprom.1 (a.toNat - 0x2400) := by
  have := h.length; have := h.low; have := h.high
  unfold mockMemory
  rw [if_neg (by omega), if_pos ⟨h1, h2⟩]

theorem mem_register (h : Layout c e) (s : Mock c) {a : Word} (h1 : 0x8000 ≤ a.toNat) :
    mockMemory s a = if a = 0x8000#16 then wordAt s.status.1 0 else if a = 0x800D#16 then wordAt s.control.1 0
      else if a = 0x800F#16 then wordAt s.i2cConfig.1 0 else 0#16 := by
  have := h.length; have := h.low; have := h.high
  unfold mockMemory
  rw [if_neg (by omega), if_neg (by omega)]

/-- A successful `getFrom`. -/
theorem getFrom_ok {m : Mode} {lo hi start stop count : Nat} {data out : List Byte} (hlo : lo ≤ start)
    (h : Mock.getFrom m (lo, hi) data start stop count = .ok out) :
    (start - lo) * 2 + count ≤ data.length ∧ out = (data.drop ((start - lo) * 2)).take count := by
  unfold Mock.getFrom at h
  cases h1 : subU16 (ε := MockErr) m stop 1 with
  | err _ => rw [h1] at h; cases h
  | panic => rw [h1] at h; cases h
  | ok last =>
    rw [h1] at h
    simp only [Res.ok_bind] at h
    split at h
    · rw [subU16_ok m hlo] at h
      obtain ⟨_, h2, h3⟩ := slice_ok h
      refine ⟨h2, ?_⟩
      rw [h3]
      congr 1
      omega
    · cases h

/-- What a successful `get` returns is what is in memory. -/
theorem get_bytes (h : Layout c e) {m : Mode} {s : Mock c} {base : Word} {count : Nat} {out : List Byte}
    (hg : s.get m base count = .ok out) : out = memBytes (mockMemory s) base count := by
  have hlen := h.length; have hlow := h.low; have hhigh := h.high
  unfold Mock.get at hg
  dsimp only at hg
  cases h1 : arithU16 (ε := MockErr) m (base.toNat + count / 2 % 65536) with
  | err _ => rw [h1] at hg; cases hg
  | panic => rw [h1] at hg; cases hg
  | ok stop =>
    rw [h1] at hg
    simp only [Res.ok_bind] at hg
    split at hg
    · cases hg
    · rename_i heven
      have heven : count % 2 = 0 := by omega
      split at hg
      · cases hg
      · split at hg
        · rename_i hr
          rw [h.ram] at hr hg
          obtain ⟨h2, h3⟩ := getFrom_ok hr.1 hg
          have hr1 : 0x0400 ≤ base.toNat := hr.1
          have hl : s.ram.1.length = c.ramLength := s.ram.2
          exact block_bytes rfl hr.1 (by omega) h2 h3 (fun a h4 h5 => mem_ram h s h4 (by omega)) heven
        · split at hg
          · rename_i hr
            rw [h.eeprom] at hr hg
            obtain ⟨h2, h3⟩ := getFrom_ok hr.1 hg
            have hl : s.eeprom.1.length = 1664 := s.eeprom.2
            have hr1 : 0x2400 ≤ base.toNat := hr.1
            exact block_bytes rfl hr.1 (by omega) h2 h3 (fun a h4 h5 => mem_eeprom h s h4 (by omega)) heven
          · split at hg
            · rename_i hr
              rw [h.registers] at hr
              split at hg
              · cases hg
              · rename_i hc
                have hc : count = 2 := by omega
                subst hc
                rw [memBytes_two, mem_register h s hr.1]
                have key : ∀ n : Nat, n < 65536 → base.toNat = n → base = BitVec.ofNat 16 n := by
                  intro n hn hb
                  apply BitVec.eq_of_toNat_eq
                  rw [BitVec.toNat_ofNat, Nat.mod_eq_of_lt (by omega), hb]
                split at hg
                · rename_i hb
                  rw [key _ (by decide) hb, if_pos rfl, ← two_eq]
                  injection hg with hg; exact hg.symm
                · split at hg
                  · rename_i hb
                    rw [key _ (by decide) hb, if_neg (by decide), if_pos rfl, ← two_eq]
                    injection hg with hg; exact hg.symm
                  · split at hg
                    · rename_i hb
                      rw [key _ (by decide) hb, if_neg (by decide), if_neg (by decide), if_pos rfl, ← two_eq]
                      injection hg with hg; exact hg.symm
                    · cases hg
            · cases hg

/-! ### Reads that succeed -/

theorem arithU16_ok {ε : Type} (m : Mode) {x : Nat} (h : x ≤ 65535) : arithU16 (ε := ε) m x = .ok x := if_pos h

theorem getFrom_served (m : Mode) {lo hi start count : Nat} {data : List Byte} (hlo : lo ≤ start)
    (hend : start + count / 2 ≤ hi + 1) (hpos : 0 < count) (heven : count % 2 = 0) (hlen : data.length = (hi + 1 - lo) * 2) :
    Mock.getFrom m (lo, hi) data start (start + count / 2) count = .ok ((data.drop ((start - lo) * 2)).take count) := by
  unfold Mock.getFrom
  rw [subU16_ok m (by omega), Res.ok_bind, if_pos (by unfold inRange; dsimp only; omega), subU16_ok m hlo, Res.ok_bind]
  unfold slice
  rw [if_pos (by omega)]
  congr 2
  omega

theorem get_served (h : Layout c e) (m : Mode) (s : Mock c) {base : Word} {count : Nat}
    (hd : (count = 2 ∧ (base = 0x8000#16 ∨ base = 0x800D#16 ∨ base = 0x800F#16)) ∨
      (0 < count ∧ count % 2 = 0 ∧ 0x0400 ≤ base.toNat ∧ base.toNat + count / 2 ≤ e + 1) ∨
      (0 < count ∧ count % 2 = 0 ∧ 0x2400 ≤ base.toNat ∧ base.toNat + count / 2 ≤ 0x2740)) :
    ∃ out, s.get m base count = .ok out := by
  have hlen := h.length; have hlow := h.low; have hhigh := h.high
  unfold Mock.get
  dsimp only
  rcases hd with ⟨rfl, hb⟩ | ⟨h1, h2, h3, h4⟩ | ⟨h1, h2, h3, h4⟩
  · rw [h.rom, h.ram, h.eeprom, h.registers]
    have hn : base.toNat = 0x8000 ∨ base.toNat = 0x800D ∨ base.toNat = 0x800F :=
      hb.imp (fun h => by rw [h]; rfl) (Or.imp (fun h => by rw [h]; rfl) (fun h => by rw [h]; rfl))
    rw [arithU16_ok m (by omega), Res.ok_bind, if_neg (by omega), if_neg (by unfold inRange; dsimp only; omega),
      if_neg (by unfold inRange; dsimp only; omega), if_neg (by unfold inRange; dsimp only; omega),
      if_pos (by unfold inRange; dsimp only; omega), if_neg (by omega)]
    rcases hn with hn | hn | hn <;> rw [hn] <;> exact ⟨_, rfl⟩
  · rw [h.rom, h.ram, Nat.mod_eq_of_lt (a := count / 2) (by omega), arithU16_ok m (by omega), Res.ok_bind,
      if_neg (by omega), if_neg (by unfold inRange; dsimp only; omega), if_pos (by unfold inRange; dsimp only; omega),
      getFrom_served m h3 h4 h1 h2 (by rw [s.ram.2, hlen])]
    exact ⟨_, rfl⟩
  · rw [h.rom, h.ram, h.eeprom, Nat.mod_eq_of_lt (a := count / 2) (by omega), arithU16_ok m (by omega), Res.ok_bind,
      if_neg (by omega), if_neg (by unfold inRange; dsimp only; omega), if_neg (by unfold inRange; dsimp only; omega),
      if_pos (by unfold inRange; dsimp only; omega), getFrom_served m h3 h4 h1 h2 (by rw [s.eeprom.2])]
    exact ⟨_, rfl⟩

/-! ### Writes -/

theorem check_iff (existing mask new : Word) :
    checkNewAgainstMask existing mask new = true ↔ OnlyBits (fun i => mask.getLsbD i = true) existing new := by
  unfold checkNewAgainstMask OnlyBits
  rw [beq_iff_eq]
  constructor
  · intro h i hi
    have h1 := congrArg (fun x => BitVec.getLsbD x i) h
    simp only [BitVec.getLsbD_and, BitVec.getLsbD_not] at h1
    by_cases hlt : i < 16
    · rw [Bool.eq_false_iff.2 hi] at h1
      simpa only [hlt, decide_true, Bool.not_false, Bool.and_self, Bool.and_true] using h1
    · rw [BitVec.getLsbD_of_ge _ _ (by omega), BitVec.getLsbD_of_ge _ _ (by omega)]
  · intro h
    apply word_ext
    intro i hi
    simp only [BitVec.getLsbD_and, BitVec.getLsbD_not]
    by_cases hm : mask.getLsbD i = true
    · simp [hm]
    · rw [h i hm]

theorem chunks_get : ∀ (l : List Byte) (j : Nat), 2 * j + 1 < l.length → (words l)[j]? = some (wordAt l j)
  | [], j, h => by simp at h
  | [_], j, h => by simp at h
  | a :: b :: rest, 0, _ => rfl
  | a :: b :: rest, j + 1, h => by
    have := chunks_get rest j (by simp only [List.length_cons] at h; omega)
    show (words rest)[j]? = _
    rw [this]
    rfl

theorem firstRefused_none : ∀ (i : Nat) (es ks vs : List Word), firstRefused i es ks vs = none ↔
    ∀ (j : Nat) (e k v : Word), es[j]? = some e → ks[j]? = some k → vs[j]? = some v → checkNewAgainstMask e k v = true
  | i, [], ks, vs => by simp [firstRefused]
  | i, e :: es, [], vs => by simp [firstRefused]
  | i, e :: es, k :: ks, [] => by simp [firstRefused]
  | i, e :: es, k :: ks, v :: vs => by
    unfold firstRefused
    by_cases hc : checkNewAgainstMask e k v = true
    · rw [if_pos hc, firstRefused_none (i + 1) es ks vs]
      constructor
      · intro h j e' k' v' h1 h2 h3
        cases j with
        | zero =>
          simp only [List.getElem?_cons_zero, Option.some.injEq] at h1 h2 h3
          subst h1 h2 h3
          exact hc
        | succ j => exact h j e' k' v' h1 h2 h3
      · intro h j e' k' v' h1 h2 h3
        exact h (j + 1) e' k' v' h1 h2 h3
    · rw [if_neg hc]
      refine ⟨fun h => (nomatch h), fun h => absurd (h 0 e k v rfl rfl rfl) hc⟩

theorem wordAt_sub (l : List Byte) (a n j : Nat) (hj : 2 * j + 1 < n) :
    wordAt ((l.drop (2 * a)).take n) j = wordAt l (a + j) := by
  unfold wordAt
  simp only [List.getD_eq_getElem?_getD, List.getElem?_take, List.getElem?_drop]
  rw [if_pos (by omega), if_pos (by omega), show 2 * a + 2 * j = 2 * (a + j) by omega,
    show 2 * a + (2 * j + 1) = 2 * (a + j) + 1 by omega]

theorem set_eeprom (h : Layout c e) {m : Mode} {s s' : Mock c} {a : Word} {data : List Byte}
    (ha1 : 0x2400 ≤ a.toNat) (hs : s.setEeprom m a data = .ok s') :
    0x240C ≤ a.toNat ∧ a.toNat ≤ 0x2410 ∧ data.length ≤ 8 ∧ (a.toNat - 0x2400) * 2 + data.length ≤ 1664 ∧
      s' = { s with eeprom := s.eeprom.splice ((a.toNat - 0x2400) * 2) data } ∧
      ∀ k, 2 * k + 1 < data.length - (a.toNat - 0x240C) * 2 →
        OnlyBits (fun i => (wordAt Mock.eepromMask (a.toNat - 0x240C + k)).getLsbD i = true)
          (wordAt s.eeprom.1 (a.toNat - 0x2400 + k)) (wordAt data k) := by
  unfold Mock.setEeprom at hs
  rw [h.eeprom] at hs
  dsimp only at hs
  rw [subU16_ok m ha1, Res.ok_bind] at hs
  cases h1 : slice (ε := MockErr) s.eeprom.1 ((a.toNat - 0x2400) * 2) ((a.toNat - 0x2400) * 2 + data.length) with
  | err _ => rw [h1] at hs; cases hs
  | panic => rw [h1] at hs; cases hs
  | ok existing =>
    rw [h1, Res.ok_bind] at hs
    obtain ⟨_, h2, h3⟩ := slice_ok h1
    have hl := s.eeprom.2
    cases h4 : subU16 (ε := MockErr) m a.toNat 0x240C with
    | err _ => rw [h4] at hs; cases hs
    | panic => rw [h4] at hs; cases hs
    | ok maskStart =>
      rw [h4, Res.ok_bind] at hs
      cases h5 : slice (ε := MockErr) Mock.eepromMask (maskStart * 2) data.length with
      | err _ => rw [h5] at hs; cases hs
      | panic => rw [h5] at hs; cases hs
      | ok mask =>
        rw [h5, Res.ok_bind] at hs
        obtain ⟨h6, h7, h8⟩ := slice_ok h5
        have h7 : data.length ≤ 8 := h7
        have hge : 0x240C ≤ a.toNat := by
          by_contra hlt
          unfold subU16 at h4
          rw [if_neg hlt] at h4
          cases m with
          | checked => cases h4
          | wrapping => injection h4 with h4; omega
        rw [subU16_ok m hge] at h4
        injection h4 with h4
        subst h4
        cases hf : firstRefused 0 (words existing) (words mask) (words data) with
        | some r => rw [hf] at hs; cases hs
        | none =>
          rw [hf] at hs
          injection hs with hs
          refine ⟨hge, by omega, h7, le_of_le_of_eq h2 hl, hs.symm, ?_⟩
          intro k hk
          rw [firstRefused_none] at hf
          have he : existing.length = data.length := by
            rw [h3, List.length_take, List.length_drop]; omega
          have hml : mask.length = data.length - (a.toNat - 0x240C) * 2 := by
            rw [h8, List.length_take, List.length_drop, show Mock.eepromMask.length = 8 from rfl]; omega
          have := hf k _ _ _ (chunks_get existing k (by omega)) (chunks_get mask k (by omega)) (chunks_get data k (by omega))
          rw [check_iff, h3, h8, Nat.mul_comm _ 2, Nat.mul_comm _ 2, wordAt_sub _ _ _ _ (by omega),
            wordAt_sub _ _ _ _ (by omega)] at this
          exact this

theorem toNat_eq {a : Word} {n : Nat} (hn : n < 65536) (h : a.toNat = n) : a = BitVec.ofNat 16 n := by
  apply BitVec.eq_of_toNat_eq
  rw [BitVec.toNat_ofNat, Nat.mod_eq_of_lt (by omega), h]

theorem mask_bits {n : Nat} (w : Word) (hw : ∀ i < 16, w.getLsbD i = decide (i < n)) (hn : n ≤ 16) (i : Nat) :
    w.getLsbD i = true ↔ i < n := by
  by_cases hi : i < 16
  · rw [hw i hi, decide_eq_true_iff]
  · rw [BitVec.getLsbD_of_ge _ _ (by omega)]
    exact ⟨fun h => (nomatch h), fun h => by omega⟩

theorem OnlyBits.congr {P Q : Nat → Prop} (h : ∀ i, P i ↔ Q i) {w w' : Word} : OnlyBits P w w' ↔ OnlyBits Q w w' :=
  forall_congr' fun i => by rw [h i]

theorem mask_word {n : Nat} {l : List Byte} {hl : l.length = 2} (hn : n ≤ 16)
    (hw : ∀ i < 16, (Bytes.toWord ⟨l, hl⟩).getLsbD i = decide (i < n)) (w w' : Word) :
    checkNewAgainstMask w (Bytes.toWord ⟨l, hl⟩) w' = true ↔ OnlyBits (fun i => i < n) w w' := by
  rw [check_iff]
  exact OnlyBits.congr (mask_bits _ hw hn)

/-- A write of one word to a register. -/
theorem set_register (h : Layout c e) (m : Mode) (s : Mock c) {a : Word} {n : Nat} (hi lo : Byte)
    (old : Word) (new : Mock c)
    (hr : (a = 0x8000#16 ∧ n = 6 ∧ old = wordAt s.status.1 0 ∧ new = { s with status := ⟨[hi, lo], rfl⟩ }) ∨
      (a = 0x800D#16 ∧ n = 13 ∧ old = wordAt s.control.1 0 ∧ new = { s with control := ⟨[hi, lo], rfl⟩ }) ∨
      (a = 0x800F#16 ∧ n = 4 ∧ old = wordAt s.i2cConfig.1 0 ∧ new = { s with i2cConfig := ⟨[hi, lo], rfl⟩ })) :
    (OnlyBits (fun i => i < n) old (be16 hi lo) → s.set m a [hi, lo] = .ok new) ∧
    (¬ OnlyBits (fun i => i < n) old (be16 hi lo) → s.set m a [hi, lo] = .err (.illegalWriteValue a (be16 hi lo))) := by
  have hlow := h.low; have hhigh := h.high
  have hn : a.toNat = 0x8000 ∨ a.toNat = 0x800D ∨ a.toNat = 0x800F :=
    hr.imp (fun h => by rw [h.1]; rfl) (Or.imp (fun h => by rw [h.1]; rfl) (fun h => by rw [h.1]; rfl))
  have hw : Bytes.toWord ⟨[hi, lo], rfl⟩ = be16 hi lo := rfl
  unfold Mock.set
  dsimp only
  rw [h.rom, h.ram, h.eeprom, h.registers, arithU16_ok m (by simp only [List.length_cons, List.length_nil]; omega), Res.ok_bind,
    if_neg (by unfold inRange; dsimp only; omega), if_neg (by unfold inRange; dsimp only; omega),
    if_pos (by unfold inRange; dsimp only; omega), hw]
  rcases hr with ⟨rfl, rfl, rfl, rfl⟩ | ⟨rfl, rfl, rfl, rfl⟩ | ⟨rfl, rfl, rfl, rfl⟩
  · rw [if_pos (by rfl), ← mask_word (n := 6) (l := Mock.statusMask) (hl := rfl) (by decide) (by decide), ← toWord_eq]
    exact ⟨fun hc => if_pos hc, fun hc => if_neg hc⟩
  · rw [if_neg (by decide), if_pos (by rfl),
      ← mask_word (n := 13) (l := Mock.controlMask) (hl := rfl) (by decide) (by decide), ← toWord_eq]
    exact ⟨fun hc => if_pos hc, fun hc => if_neg hc⟩
  · rw [if_neg (by decide), if_neg (by decide), if_pos (by rfl),
      ← mask_word (n := 4) (l := Mock.i2cConfigMask) (hl := rfl) (by decide) (by decide), ← toWord_eq]
    exact ⟨fun hc => if_pos hc, fun hc => if_neg hc⟩

/-- A successful write. -/
theorem set_cases (h : Layout c e) {m : Mode} {s s' : Mock c} {a : Word} {data : List Byte}
    (hs : s.set m a data = .ok s') :
    (∃ hi lo n old, data = [hi, lo] ∧ OnlyBits (fun i => i < n) old (be16 hi lo) ∧
      ((a = 0x8000#16 ∧ n = 6 ∧ old = wordAt s.status.1 0 ∧ s' = { s with status := ⟨[hi, lo], rfl⟩ }) ∨
      (a = 0x800D#16 ∧ n = 13 ∧ old = wordAt s.control.1 0 ∧ s' = { s with control := ⟨[hi, lo], rfl⟩ }) ∨
      (a = 0x800F#16 ∧ n = 4 ∧ old = wordAt s.i2cConfig.1 0 ∧ s' = { s with i2cConfig := ⟨[hi, lo], rfl⟩ }))) ∨
    (0x2400 ≤ a.toNat ∧ a.toNat < 0x2740 ∧ s.setEeprom m a data = .ok s') := by
  have hlow := h.low; have hhigh := h.high
  have hs0 := hs
  unfold Mock.set at hs
  dsimp only at hs
  cases h1 : arithU16 (ε := MockErr) m (a.toNat + data.length % 65536 / 2) with
  | err _ => rw [h1] at hs; cases hs
  | panic => rw [h1] at hs; cases hs
  | ok stop =>
    rw [h1, Res.ok_bind] at hs
    split at hs
    · cases hs
    · split at hs
      · rename_i hr
        rw [h.eeprom] at hr
        have h2 : a.toNat ≤ 0x273F := hr.2
        exact Or.inr ⟨hr.1, by omega, hs⟩
      · split at hs
        · split at hs
          · rename_i hi lo
            left
            have key : ∀ (n : Nat) (old : Word) (new : Mock c),
                ((a = 0x8000#16 ∧ n = 6 ∧ old = wordAt s.status.1 0 ∧ new = { s with status := ⟨[hi, lo], rfl⟩ }) ∨
                (a = 0x800D#16 ∧ n = 13 ∧ old = wordAt s.control.1 0 ∧ new = { s with control := ⟨[hi, lo], rfl⟩ }) ∨
                (a = 0x800F#16 ∧ n = 4 ∧ old = wordAt s.i2cConfig.1 0 ∧ new = { s with i2cConfig := ⟨[hi, lo], rfl⟩ })) →
                OnlyBits (fun i => i < n) old (be16 hi lo) ∧ s' = new := by
              intro n old new hr
              obtain ⟨h2, h3⟩ := set_register h m s hi lo old new hr
              by_cases hb : OnlyBits (fun i => i < n) old (be16 hi lo)
              · rw [h2 hb] at hs0
                injection hs0 with hs0
                exact ⟨hb, hs0.symm⟩
              · rw [h3 hb] at hs0
                cases hs0
            split at hs
            · rename_i ha
              obtain ⟨h2, h3⟩ := key _ _ _ (Or.inl ⟨toNat_eq (by decide) ha, rfl, rfl, rfl⟩)
              exact ⟨hi, lo, _, _, rfl, h2, Or.inl ⟨toNat_eq (by decide) ha, rfl, rfl, h3⟩⟩
            · split at hs
              · rename_i ha
                obtain ⟨h2, h3⟩ := key _ _ _ (Or.inr (Or.inl ⟨toNat_eq (by decide) ha, rfl, rfl, rfl⟩))
                exact ⟨hi, lo, _, _, rfl, h2, Or.inr (Or.inl ⟨toNat_eq (by decide) ha, rfl, rfl, h3⟩)⟩
              · split at hs
                · rename_i ha
                  obtain ⟨h2, h3⟩ := key _ _ _ (Or.inr (Or.inr ⟨toNat_eq (by decide) ha, rfl, rfl, rfl⟩))
                  exact ⟨hi, lo, _, _, rfl, h2, Or.inr (Or.inr ⟨toNat_eq (by decide) ha, rfl, rfl, h3⟩)⟩
                · cases hs
          · cases hs
        · cases hs

theorem blit_get {n : Nat} (x : Bytes n) (start : Nat) (data : List Byte) (h : start + data.length ≤ n) (i : Nat) :
    (x.splice start data).1[i]? = if i < start then x.1[i]? else if i < start + data.length then data[i - start]?
      else x.1[i]? := by
  have hx := x.2
  unfold Bytes.splice
  rw [dif_pos h]
  have hlt : (x.1.take start).length = start := by rw [List.length_take]; omega
  dsimp only
  by_cases hi1 : i < start
  · rw [if_pos hi1, List.append_assoc, List.getElem?_append_left (by omega), List.getElem?_take, if_pos hi1]
  · rw [if_neg hi1, List.append_assoc, List.getElem?_append_right (by omega), hlt]
    by_cases hi2 : i < start + data.length
    · rw [if_pos hi2, List.getElem?_append_left (by omega)]
    · rw [if_neg hi2, List.getElem?_append_right (by omega), List.getElem?_drop]
      congr 1
      omega

theorem splice_word {n : Nat} (x : Bytes n) (j : Nat) (hi lo : Byte) (hj : 2 * j + 2 ≤ n) (k : Nat) :
    wordAt (x.splice (j * 2) [hi, lo]).1 k = if k = j then be16 hi lo else wordAt x.1 k := by
  have hx := x.2
  unfold Bytes.splice
  rw [dif_pos (by simp only [List.length_cons, List.length_nil]; omega)]
  unfold wordAt
  simp only [List.getD_eq_getElem?_getD, List.length_cons, List.length_nil]
  have hg : ∀ i, (x.1.take (j * 2) ++ [hi, lo] ++ x.1.drop (j * 2 + (0 + 1 + 1)))[i]? =
      if i < j * 2 then x.1[i]? else if i = j * 2 then some hi else if i = j * 2 + 1 then some lo else x.1[i]? := by
    intro i
    have hlt : (x.1.take (j * 2)).length = j * 2 := by rw [List.length_take]; omega
    by_cases h1 : i < j * 2
    · rw [if_pos h1, List.append_assoc, List.getElem?_append_left (by omega), List.getElem?_take, if_pos h1]
    · rw [if_neg h1]
      by_cases h2 : i = j * 2
      · rw [if_pos h2, List.append_assoc, List.getElem?_append_right (by omega), hlt, h2, Nat.sub_self]
        rfl
      · rw [if_neg h2]
        by_cases h3 : i = j * 2 + 1
        · rw [if_pos h3, List.append_assoc, List.getElem?_append_right (by omega), hlt, h3,
            show j * 2 + 1 - j * 2 = 1 by omega]
          rfl
        · rw [if_neg h3, List.getElem?_append_right (by rw [List.length_append, hlt]; simp only [List.length_cons, List.length_nil]; omega),
            List.length_append, hlt, List.getElem?_drop]
          congr 1
          simp only [List.length_cons, List.length_nil]; omega
  rw [hg, hg]
  by_cases hk : k = j
  · rw [if_pos hk, if_neg (by omega), if_pos (by omega), if_neg (by omega), if_neg (by omega), if_pos (by omega)]
    rfl
  · rw [if_neg hk]
    have e1 : ∀ i, i ≠ j * 2 → i ≠ j * 2 + 1 →
        (if i < j * 2 then x.1[i]? else if i = j * 2 then some hi else if i = j * 2 + 1 then some lo else x.1[i]?) = x.1[i]? := by
      intro i h1 h2
      rw [if_neg h1, if_neg h2, ite_self]
    rw [e1 _ (by omega) (by omega), e1 _ (by omega) (by omega)]

/-- A successful write of one word stores it, and changes no other word. -/
theorem set_word (h : Layout c e) {m : Mode} {s s' : Mock c} {a v : Word} (hs : s.set m a (toBe v) = .ok s') :
    mockMemory s' = setWord (mockMemory s) a v := by
  have hlow := h.low; have hhigh := h.high; have hlen := h.length
  rcases set_cases h hs with ⟨hi, lo, n, old, hd, hb, hr⟩ | ⟨h1, h2, h3⟩
  · have hv : be16 hi lo = v := by
      rw [← be16_toBe v]
      unfold toBe at hd
      injection hd with hd1 hd2
      injection hd2 with hd2
      rw [hd1, hd2]
    funext x
    have hwd : wordAt [hi, lo] 0 = v := by rw [← hv]; rfl
    have hout : x.toNat < 0x8000 → mockMemory s' x = mockMemory s x := by
      intro hx
      unfold mockMemory
      have hne : ∀ w : Word, 0x8000 ≤ w.toNat → x ≠ w := by rintro w hw rfl; omega
      rw [if_neg (hne 0x8000#16 (by decide)), if_neg (hne 0x800D#16 (by decide)), if_neg (hne 0x800F#16 (by decide)),
        if_neg (hne 0x8000#16 (by decide)), if_neg (hne 0x800D#16 (by decide)), if_neg (hne 0x800F#16 (by decide))]
      rcases hr with ⟨_, _, _, rfl⟩ | ⟨_, _, _, rfl⟩ | ⟨_, _, _, rfl⟩ <;> rfl
    by_cases hx : x.toNat < 0x8000
    · rw [hout hx]
      unfold setWord
      rw [if_neg]
      rintro rfl
      rcases hr with ⟨rfl, _⟩ | ⟨rfl, _⟩ | ⟨rfl, _⟩ <;> revert hx <;> decide
    · rw [mem_register h s' (by omega)]
      unfold setWord
      rw [mem_register h s (by omega)]
      rcases hr with ⟨rfl, _, _, rfl⟩ | ⟨rfl, _, _, rfl⟩ | ⟨rfl, _, _, rfl⟩
      · by_cases hx : x = 0x8000#16
        · rw [if_pos hx, if_pos hx, hwd]
        · rw [if_neg hx, if_neg hx, if_neg hx]
      · by_cases hx : x = 0x800D#16
        · subst hx
          rw [if_neg (by decide), if_pos rfl, if_pos rfl, hwd]
        · rw [if_neg hx, if_neg hx, if_neg hx]
      · by_cases hx : x = 0x800F#16
        · subst hx
          rw [if_neg (by decide), if_neg (by decide), if_pos rfl, if_pos rfl, hwd]
        · rw [if_neg hx, if_neg hx, if_neg hx]
  · obtain ⟨h4, h5, h6, _, rfl, _⟩ := set_eeprom h h1 h3
    funext x
    unfold setWord
    have hw := splice_word s.eeprom (a.toNat - 0x2400) (hiByte v) (loByte v) (by omega)
    rw [be16_toBe] at hw
    by_cases hx : x = a
    · rw [if_pos hx, hx, mem_eeprom h _ h1 h2]
      exact (hw _).trans (if_pos rfl)
    · rw [if_neg hx]
      have hne : x.toNat ≠ a.toNat := fun h => hx (BitVec.eq_of_toNat_eq h)
      by_cases he : 0x2400 ≤ x.toNat ∧ x.toNat < 0x2740
      · rw [mem_eeprom h _ he.1 he.2, mem_eeprom h _ he.1 he.2]
        exact (hw _).trans (if_neg (by omega))
      · unfold mockMemory
        rw [if_neg he, if_neg he]

/-! ### Transactions -/

theorem known_iff (h : Layout c e) (a : Word) :
    (inRange c.romRange a.toNat ∨ inRange c.ramRange a.toNat ∨ inRange c.eepromRange a.toNat ∨
      inRange c.registerRange a.toNat) ↔
    a.toNat ≤ 0x03FF ∨ (0x0400 ≤ a.toNat ∧ a.toNat ≤ e) ∨ (0x2400 ≤ a.toNat ∧ a.toNat ≤ 0x273F) ∨
      (0x8000 ≤ a.toNat ∧ a.toNat ≤ 0x8016) := by
  rw [h.rom, h.ram, h.eeprom, h.registers]
  unfold inRange
  simp

theorem two_list {out : List Byte} (h : out.length = 2) : ∃ base, out = toBe base := by
  match out, h with
  | [a, b], _ => exact ⟨be16 a b, (toBe_be16 a b).symm⟩

theorem extract_toBe (c : MockConfig) (a : Word) (rest : List Byte) :
    Mock.extractAddress c (toBe a ++ rest) = if inRange c.romRange a.toNat ∨ inRange c.ramRange a.toNat ∨
      inRange c.eepromRange a.toNat ∨ inRange c.registerRange a.toNat then .ok a
      else .err (.unknownMemoryAddress a) := by
  show (if _ then Res.ok (be16 (hiByte a) (loByte a)) else Res.err _) = _
  rw [be16_toBe]

theorem get_length (h : Layout c e) {m : Mode} {s : Mock c} {base : Word} {count : Nat} {out : List Byte}
    (hg : s.get m base count = .ok out) : out.length = count := by
  rw [get_bytes h hg, memBytes, List.length_map, List.length_range]

theorem get_known (h : Layout c e) {m : Mode} {s : Mock c} {base : Word} {count : Nat} {out : List Byte}
    (hg : s.get m base count = .ok out) :
    count % 2 = 0 ∧ ((0x0400 ≤ base.toNat ∧ base.toNat + count / 2 ≤ e + 1) ∨
      (0x2400 ≤ base.toNat ∧ base.toNat + count / 2 ≤ 0x2740) ∨
      (count = 2 ∧ (base = 0x8000#16 ∨ base = 0x800D#16 ∨ base = 0x800F#16))) := by
  have hlen := h.length; have hlow := h.low; have hhigh := h.high
  unfold Mock.get at hg
  dsimp only at hg
  cases h1 : arithU16 (ε := MockErr) m (base.toNat + count / 2 % 65536) with
  | err _ => rw [h1] at hg; cases hg
  | panic => rw [h1] at hg; cases hg
  | ok stop =>
    rw [h1, Res.ok_bind] at hg
    split at hg
    · cases hg
    · rename_i heven
      refine ⟨by omega, ?_⟩
      split at hg
      · cases hg
      · split at hg
        · rename_i hr
          rw [h.ram] at hr hg
          obtain ⟨h2, _⟩ := getFrom_ok hr.1 hg
          have hr1 : 0x0400 ≤ base.toNat := hr.1
          rw [s.ram.2] at h2
          exact Or.inl ⟨hr1, by omega⟩
        · split at hg
          · rename_i hr
            rw [h.eeprom] at hr hg
            obtain ⟨h2, _⟩ := getFrom_ok hr.1 hg
            have hr1 : 0x2400 ≤ base.toNat := hr.1
            rw [s.eeprom.2] at h2
            exact Or.inr (Or.inl ⟨hr1, by omega⟩)
          · split at hg
            · split at hg
              · cases hg
              · rename_i hc
                refine Or.inr (Or.inr ⟨by omega, ?_⟩)
                split at hg
                · rename_i hb
                  exact Or.inl (toNat_eq (by decide) hb)
                · split at hg
                  · rename_i hb
                    exact Or.inr (Or.inl (toNat_eq (by decide) hb))
                  · split at hg
                    · rename_i hb
                      exact Or.inr (Or.inr (toNat_eq (by decide) hb))
                    · cases hg
            · cases hg

/-- A combined transaction with the mock: it is refused before memory is looked at, and nothing happens; or it is noted
as an operation and its outcome is that of `get`. -/
theorem mock_read (h : Layout c e) (m : Mode) (s : Mock c) (a : Byte) (out buf : List Byte) :
    ((∃ f, (mockBus m c).writeRead s a out buf = (s, buf, some f)) ∧
      ¬ (a = c.i2cAddress ∧ 0 < buf.length ∧ ∃ base r, out = toBe base ∧ s.get m base buf.length = .ok r)) ∨
    (a = c.i2cAddress ∧ 0 < buf.length ∧ ∃ base, out = toBe base ∧
      (mockBus m c).writeRead s a out buf = (s.addOperation (.read base buf.length),
        match s.get m base buf.length with
        | .ok data => (data, none)
        | .err e => (buf, some (.error e))
        | .panic => (buf, some .panic))) := by
  by_cases ha : a = c.i2cAddress
  · by_cases hl : out.length ≠ 2 ∨ buf.length = 0
    · left
      refine ⟨⟨.error .illegalOperation, ?_⟩, ?_⟩
      · unfold mockBus
        dsimp only
        unfold Mock.writeRead
        rw [if_neg (not_not.2 ha), if_pos hl]
      · rintro ⟨_, h1, base, r, rfl, _⟩
        rcases hl with hl | hl
        · exact hl rfl
        · omega
    · obtain ⟨base, rfl⟩ := two_list (out := out) (by omega)
      have hx := extract_toBe c base []
      rw [List.append_nil] at hx
      by_cases hk : inRange c.romRange base.toNat ∨ inRange c.ramRange base.toNat ∨ inRange c.eepromRange base.toNat ∨
          inRange c.registerRange base.toNat
      · right
        refine ⟨ha, by omega, base, rfl, ?_⟩
        unfold mockBus
        dsimp only
        unfold Mock.writeRead
        rw [if_neg (not_not.2 ha), if_neg hl, hx, if_pos hk]
        dsimp only
        have hg : (s.addOperation (.read base buf.length)).get m base buf.length = s.get m base buf.length := rfl
        rw [hg]
        cases hs : s.get m base buf.length with
        | err e => rfl
        | panic => rfl
        | ok data =>
          have hlen := get_length h hs
          rw [Res.ok_bind, if_pos hlen]
          dsimp only
          rw [if_pos hlen]
      · left
        refine ⟨⟨.error (.unknownMemoryAddress base), ?_⟩, ?_⟩
        · unfold mockBus
          dsimp only
          unfold Mock.writeRead
          rw [if_neg (not_not.2 ha), if_neg hl, hx, if_neg hk]
        · rintro ⟨_, h1, base', r, h2, h3⟩
          have hb : base' = base := by
            unfold toBe at h2
            injection h2 with h4 h5
            injection h5 with h5
            rw [← be16_toBe base', ← be16_toBe base, h4, h5]
          subst hb
          obtain ⟨_, h4⟩ := get_known h h3
          rw [known_iff h] at hk
          have := h.low
          have : base' = 0x8000#16 ∨ base' = 0x800D#16 ∨ base' = 0x800F#16 → 0x8000 ≤ base'.toNat ∧ base'.toNat ≤ 0x8016 := by
            rintro (rfl | rfl | rfl) <;> decide
          have hpos : 1 ≤ buf.length / 2 := by
            have := (get_known h h3).1
            omega
          rcases h4 with h4 | h4 | h4
          · omega
          · omega
          · have := this h4.2
            omega
  · left
    refine ⟨⟨.error (.unknownI2cAddress a), ?_⟩, fun hc => ha hc.1⟩
    unfold mockBus
    dsimp only
    unfold Mock.writeRead
    rw [if_pos ha]

/-- A write to the mock: it succeeds as `set` does, or nothing happens. -/
theorem mock_write (h : Layout c e) (m : Mode) (s : Mock c) (a : Byte) (bytes : List Byte) :
    ((∃ f, (mockBus m c).write s a bytes = (s, some f)) ∧
      ¬ (a = c.i2cAddress ∧ ∃ reg payload s', bytes = toBe reg ++ payload ∧ s.set m reg payload = .ok s')) ∨
    (a = c.i2cAddress ∧ ∃ reg payload s', bytes = toBe reg ++ payload ∧ s.set m reg payload = .ok s' ∧
      (mockBus m c).write s a bytes = (s'.addOperation (.write reg payload.length), none)) := by
  by_cases ha : a = c.i2cAddress
  · match bytes with
    | [] =>
      left
      refine ⟨⟨.panic, ?_⟩, ?_⟩
      · unfold mockBus
        dsimp only
        unfold Mock.write
        rw [if_neg (not_not.2 ha)]
        rfl
      · rintro ⟨_, reg, payload, s', h1, _⟩
        cases h1
    | [x] =>
      left
      refine ⟨⟨.panic, ?_⟩, ?_⟩
      · unfold mockBus
        dsimp only
        unfold Mock.write
        rw [if_neg (not_not.2 ha)]
        rfl
      · rintro ⟨_, reg, payload, s', h1, _⟩
        cases h1
    | x :: y :: payload =>
      have hb : x :: y :: payload = toBe (be16 x y) ++ payload := by rw [toBe_be16]; rfl
      have hinj : ∀ reg p, x :: y :: payload = toBe reg ++ p → reg = be16 x y ∧ p = payload := by
        intro reg p h2
        unfold toBe at h2
        injection h2 with h4 h5
        injection h5 with h5 h6
        exact ⟨by rw [← be16_toBe reg, h4, h5], h6.symm⟩
      have hx := extract_toBe c (be16 x y) payload
      rw [← hb] at hx
      have hd : (x :: y :: payload).drop 2 = payload := rfl
      cases hs : s.set m (be16 x y) payload with
      | ok s' =>
        right
        refine ⟨ha, be16 x y, payload, s', hb, hs, ?_⟩
        have hk : inRange c.romRange (be16 x y).toNat ∨ inRange c.ramRange (be16 x y).toNat ∨
            inRange c.eepromRange (be16 x y).toNat ∨ inRange c.registerRange (be16 x y).toNat := by
          rw [known_iff h]
          rcases set_cases h hs with ⟨_, _, _, _, _, _, hr⟩ | ⟨h1, h2, _⟩
          · rcases hr with ⟨hr, _⟩ | ⟨hr, _⟩ | ⟨hr, _⟩ <;> rw [hr] <;> simp
          · omega
        unfold mockBus
        dsimp only
        unfold Mock.write
        rw [if_neg (not_not.2 ha), hx, if_pos hk, Res.ok_bind, hd]
        dsimp only
        rw [hs, Res.ok_bind]
      | err e =>
        left
        refine ⟨?_, ?_⟩
        · by_cases hk : inRange c.romRange (be16 x y).toNat ∨ inRange c.ramRange (be16 x y).toNat ∨
            inRange c.eepromRange (be16 x y).toNat ∨ inRange c.registerRange (be16 x y).toNat
          · refine ⟨.error e, ?_⟩
            unfold mockBus
            dsimp only
            unfold Mock.write
            rw [if_neg (not_not.2 ha), hx, if_pos hk, Res.ok_bind, hd]
            dsimp only
            rw [hs]
            rfl
          · refine ⟨.error (.unknownMemoryAddress (be16 x y)), ?_⟩
            unfold mockBus
            dsimp only
            unfold Mock.write
            rw [if_neg (not_not.2 ha), hx, if_neg hk]
            rfl
        · rintro ⟨_, reg, p, s', h1, h2⟩
          obtain ⟨rfl, rfl⟩ := hinj reg p h1
          rw [hs] at h2; cases h2
      | panic =>
        left
        refine ⟨?_, ?_⟩
        · by_cases hk : inRange c.romRange (be16 x y).toNat ∨ inRange c.ramRange (be16 x y).toNat ∨
            inRange c.eepromRange (be16 x y).toNat ∨ inRange c.registerRange (be16 x y).toNat
          · refine ⟨.panic, ?_⟩
            unfold mockBus
            dsimp only
            unfold Mock.write
            rw [if_neg (not_not.2 ha), hx, if_pos hk, Res.ok_bind, hd]
            dsimp only
            rw [hs]
            rfl
          · refine ⟨.error (.unknownMemoryAddress (be16 x y)), ?_⟩
            unfold mockBus
            dsimp only
            unfold Mock.write
            rw [if_neg (not_not.2 ha), hx, if_neg hk]
            rfl
        · rintro ⟨_, reg, p, s', h1, h2⟩
          obtain ⟨rfl, rfl⟩ := hinj reg p h1
          rw [hs] at h2; cases h2
  · left
    refine ⟨⟨.error (.unknownI2cAddress a), ?_⟩, fun hc => ha hc.1⟩
    unfold mockBus
    dsimp only
    unfold Mock.write
    rw [if_pos ha]

end Mlx.Proofs
