import Verif.Spec.Address
import Verif.Model.Text
import Verif.Spec.Text
/-
The public address names and the texts of errors: C86, C87.
-/
set_option autoImplicit false
namespace Mlx.Props
open Mlx Mlx.Spec

theorem addressLaws {u16Of : RamAddress → Word} (inj : ∀ a b, u16Of a = u16Of b → a = b)
    (order : ∀ a b, (u16Of a).toNat ≤ (u16Of b).toNat ↔ RamAddress.variants.idxOf a ≤ RamAddress.variants.idxOf b)
    (small : ∀ a, (u16Of a).toNat ≤ 0x7FFF) : AddressLaws u16Of := by
  have mem : ∀ a, a ∈ RamAddress.variants := by intro a; cases a <;> decide
  have some_of : ∀ w a, RamAddress.tryFrom u16Of w = some a → u16Of a = w := fun w a h =>
    eq_of_beq (List.find?_some (p := fun a => u16Of a == w) h)
  have none_of : ∀ w, RamAddress.tryFrom u16Of w = none → ∀ a, u16Of a ≠ w := by
    intro w h a ha
    have := List.find?_eq_none.1 h a (mem a)
    rw [ha] at this
    simp at this
  refine ⟨fun w a => ⟨some_of w a, fun h => ?_⟩, fun w => ⟨none_of w, fun h => ?_⟩, fun a b => ?_, fun a => ?_, fun m a b => ?_,
    fun m a b h => ?_, fun a b h => ?_⟩
  · cases hx : RamAddress.tryFrom u16Of w with
    | none => exact absurd h (none_of w hx a)
    | some x => rw [inj x a ((some_of w x hx).trans h.symm)]
  · cases hx : RamAddress.tryFrom u16Of w with
    | none => rfl
    | some x => exact absurd (some_of w x hx) (h x)
  · unfold RamAddress.le
    rw [decide_eq_true_iff]
    exact order a b
  · constructor
    · rw [order]; cases a <;> decide
    · rw [order]; cases a <;> decide
  · have h1 := small a
    have h2 := small b
    unfold RamAddress.add arithU16
    rw [if_pos (by omega)]
  · unfold RamAddress.le at h
    unfold RamAddress.sub
    rw [if_pos (of_decide_eq_true h)]
  · unfold RamAddress.le at h
    have h := of_decide_eq_false h
    unfold RamAddress.sub
    rw [if_neg h, if_neg h]
    refine ⟨rfl, _, rfl, by omega, ?_⟩
    have h1 := (u16Of b).isLt
    have h2 := (u16Of a).isLt
    rw [Nat.sub_add_cancel (by omega), Nat.add_mod_right, Nat.mod_eq_of_lt h2]

/-- **C86.** The public RAM addresses of both cameras: the laws above, and their values, which are those the driver reads
(`T_A_V_BE`, `T_A_PTAT`, `GAIN`, `V_DD_PIXEL`, `compensation_pixel`). The pixels - 768 words, or 2 × 192 - fill the space from `Base`
up to the first of the other readings. -/
theorem C86_ram_addresses :
    AddressLaws RamAddress.u16Of640 ∧ AddressLaws RamAddress.u16Of641 ∧
    (∀ u16Of cam, (u16Of, cam) = (RamAddress.u16Of640, Mlx90640.cam) ∨ (u16Of, cam) = (RamAddress.u16Of641, Mlx90641.cam) →
      u16Of .ambientTemperatureVoltageBe = cam.tAVbe ∧ u16Of .ambientTemperatureVoltage = cam.tAPtat ∧
      u16Of .gain = cam.gain ∧ u16Of .pixelSupplyVoltage = cam.vddPixel ∧
      u16Of .compensationPixelZero = cam.compensationPixel .zero ∧ u16Of .compensationPixelOne = cam.compensationPixel .one ∧
      u16Of .base = 0x0400#16) ∧
    (RamAddress.u16Of640 .ambientTemperatureVoltageBe).toNat = 0x0400 + 32 * 24 ∧
    (RamAddress.u16Of641 .ambientTemperatureVoltageBe).toNat = 0x0400 + 2 * (16 * 12) ∧
    RamAddress.u16Of640 .last = 0x073F#16 ∧ RamAddress.u16Of641 .last = 0x05BF#16 := by
  refine ⟨addressLaws ?_ ?_ ?_, addressLaws ?_ ?_ ?_, ?_, rfl, rfl, rfl, rfl⟩
  · intro a b; cases a <;> cases b <;> decide
  · intro a b; cases a <;> cases b <;> decide
  · intro a; cases a <;> decide
  · intro a b; cases a <;> cases b <;> decide
  · intro a b; cases a <;> cases b <;> decide
  · intro a; cases a <;> decide
  · rintro u16Of cam (h | h)
    all_goals
      rw [Prod.mk.injEq] at h
      obtain ⟨rfl, rfl⟩ := h
      exact ⟨rfl, rfl, rfl, rfl, rfl, rfl, rfl⟩

/-- Both kinds of differences exist, and addresses without a name. -/
example : RamAddress.sub RamAddress.u16Of640 .checked .gain .base = .ok 0x030A ∧
    RamAddress.sub RamAddress.u16Of640 .checked .base .gain = .panic ∧
    RamAddress.tryFrom RamAddress.u16Of641 0x0401#16 = none ∧
    RamAddress.tryFrom RamAddress.u16Of641 0x05AA#16 = some .pixelSupplyVoltage ∧
    RamAddress.tryFrom RamAddress.u16Of640 0x05AA#16 = none := by decide

/-! ### Texts -/

theorem valueOf_append (digits ds : List Char) (c : Char) :
    valueOf digits (ds ++ [c]) = valueOf digits ds * digits.length + digits.idxOf c := by
  unfold valueOf
  rw [List.foldl_append]
  rfl

theorem valueOf_zeros (n : Nat) (ds : List Char) :
    valueOf hexDigits (List.replicate n '0' ++ ds) = valueOf hexDigits ds := by
  unfold valueOf
  rw [List.foldl_append]
  have : List.foldl (fun n c => n * hexDigits.length + hexDigits.idxOf c) 0 (List.replicate n '0') = 0 := by
    induction n with
    | zero => rfl
    | succ n ih =>
      rw [List.replicate_succ, List.foldl_cons]
      exact ih
  rw [this]

theorem hexDigit_value : ∀ n < 16, hexDigit n ∈ hexDigits ∧ hexDigits.idxOf (hexDigit n) = n := by decide

theorem decimalDigit_value : ∀ n < 10, "0123456789".toList.getD n '?' ∈ decimalDigits ∧
    decimalDigits.idxOf ("0123456789".toList.getD n '?') = n := by decide

theorem hexUpper_denotes (n : Nat) : Denotes hexDigits (hexUpper n) n := by
  induction n using Nat.strongRecOn with
  | ind n ih =>
    unfold hexUpper
    by_cases h : n < 16
    · rw [if_pos h]
      obtain ⟨h1, h2⟩ := hexDigit_value n h
      refine ⟨by simpa using h1, ?_⟩
      show 0 * _ + _ = _
      rw [h2]
      omega
    · rw [if_neg h]
      obtain ⟨h1, h2⟩ := ih (n / 16) (by omega)
      obtain ⟨h3, h4⟩ := hexDigit_value (n % 16) (by omega)
      refine ⟨fun c hc => ?_, ?_⟩
      · rcases List.mem_append.1 hc with hc | hc
        · exact h1 c hc
        · rw [List.mem_singleton.1 hc]; exact h3
      · rw [valueOf_append, h2, h4]
        show n / 16 * 16 + n % 16 = n
        omega

theorem decimal_denotes (n : Nat) : Denotes decimalDigits (decimal n) n := by
  induction n using Nat.strongRecOn with
  | ind n ih =>
    unfold decimal
    by_cases h : n < 10
    · rw [if_pos h]
      obtain ⟨h1, h2⟩ := decimalDigit_value n h
      refine ⟨by simpa using h1, ?_⟩
      show 0 * _ + _ = _
      rw [h2]
      omega
    · rw [if_neg h]
      obtain ⟨h1, h2⟩ := ih (n / 10) (by omega)
      obtain ⟨h3, h4⟩ := decimalDigit_value (n % 10) (by omega)
      refine ⟨fun c hc => ?_, ?_⟩
      · rcases List.mem_append.1 hc with hc | hc
        · exact h1 c hc
        · rw [List.mem_singleton.1 hc]; exact h3
      · rw [valueOf_append, h2, h4]
        show n / 10 * 10 + n % 10 = n
        omega

theorem hexUpper_length (k : Nat) : ∀ n, n < 16 ^ (k + 1) → 1 ≤ (hexUpper n).length ∧ (hexUpper n).length ≤ k + 1 := by
  induction k with
  | zero =>
    intro n h
    unfold hexUpper
    rw [if_pos (by simpa using h)]
    exact ⟨Nat.le_refl _, Nat.le_refl _⟩
  | succ k ih =>
    intro n h
    unfold hexUpper
    by_cases h16 : n < 16
    · rw [if_pos h16]
      exact ⟨Nat.le_refl _, Nat.le_add_left ..⟩
    · rw [if_neg h16, List.length_append]
      have := ih (n / 16) (Nat.div_lt_of_lt_mul (by rw [Nat.mul_comm, ← Nat.pow_succ]; exact h))
      exact ⟨by rw [List.length_singleton]; omega, by rw [List.length_singleton]; omega⟩

/-- The first digit is not a zero, unless the number is zero. -/
theorem hexUpper_head (n : Nat) (h : n ≠ 0) : (hexUpper n).head? ≠ some '0' := by
  induction n using Nat.strongRecOn with
  | ind n ih =>
    unfold hexUpper
    by_cases h16 : n < 16
    · rw [if_pos h16]
      have : ∀ n < 16, n ≠ 0 → [hexDigit n].head? ≠ some '0' := by decide
      exact this n h16 h
    · rw [if_neg h16]
      have h1 := ih (n / 16) (by omega) (by omega)
      rw [List.head?_append]
      intro hc
      cases hx : (hexUpper (n / 16)).head? with
      | none =>
        have := List.head?_eq_none_iff.1 hx
        have h2 := (hexUpper_denotes (n / 16)).2
        rw [this] at h2
        have h2 : 0 = n / 16 := h2
        omega
      | some c =>
        rw [hx] at hc h1
        exact h1 hc

/-- **C87.** The texts of errors.
* A checksum error is displayed with the word read from the EEPROM, as `0x` and exactly four upper-case hexadecimal digits; inside
  an `Error` it is displayed in decimal digits.
* The text of an `Error` begins with `I2C Error: ` exactly if the bus failed and with `Library Error: ` exactly if not; so no bus error
  has the text of a library error, whatever the bus's own texts are.
* `Debug` names the three kinds: two errors of different kinds never have the same text.
* `source` is always the error inside. -/
theorem C87_error_texts {ER EW : Type} (dr : ER → List Char) (dw : EW → List Char) :
    (∀ w : Word, ∃ ds, ds.length = 4 ∧ Denotes hexDigits ds w.toNat ∧
      (LibErr.checksum w).display = "Invalid checksum for data 0x".toList ++ ds) ∧
    (∀ w : Word, ∃ ds, Denotes decimalDigits ds w.toNat ∧
      Err.display dr dw (.library (.checksum w)) = "Library Error: Checksum(".toList ++ ds ++ [')']) ∧
    (∀ e : Err ER EW,
      ("I2C Error: ".toList <+: e.display dr dw ↔ (∃ x, e = .i2cWriteRead x) ∨ ∃ x, e = .i2cWrite x) ∧
      ("Library Error: ".toList <+: e.display dr dw ↔ ∃ x, e = .library x)) ∧
    (∀ e e' : Err ER EW, e.debug dr dw = e'.debug dr dw →
      (∃ x y, e = .i2cWriteRead x ∧ e' = .i2cWriteRead y ∧ dr x = dr y) ∨
      (∃ x y, e = .i2cWrite x ∧ e' = .i2cWrite y ∧ dw x = dw y) ∨
      (∃ x y, e = .library x ∧ e' = .library y ∧ x.debug = y.debug)) ∧
    (∀ (x : ER) (y : EW) (z : LibErr),
      Err.source (.i2cWriteRead x : Err ER EW) = some (.inl x) ∧ Err.source (.i2cWrite y : Err ER EW) = some (.inr (.inl y)) ∧
      Err.source (Err.ofLibErr z : Err ER EW) = some (.inr (.inr z))) := by
  refine ⟨fun w => ?_, fun w => ⟨_, decimal_denotes _, ?_⟩, fun e => ⟨?_, ?_⟩, fun e e' h => ?_, fun x y z => ⟨rfl, rfl, rfl⟩⟩
  · obtain ⟨h1, h2⟩ := hexUpper_denotes w.toNat
    have h3 := hexUpper_length 3 w.toNat w.isLt
    refine ⟨List.replicate (4 - (hexUpper w.toNat).length) '0' ++ hexUpper w.toNat, ?_, ⟨fun c hc => ?_, ?_⟩, ?_⟩
    · rw [List.length_append, List.length_replicate]
      omega
    · rcases List.mem_append.1 hc with hc | hc
      · rw [List.eq_of_mem_replicate hc]; decide
      · exact h1 c hc
    · rw [valueOf_zeros, h2]
    · show "Invalid checksum for data ".toList ++ ("0x".toList ++ _ ++ _) = _
      rw [List.append_assoc, ← List.append_assoc]
      rfl
  · show "Library Error: ".toList ++ ("Checksum(".toList ++ decimal w.toNat ++ ")".toList) = _
    rw [List.append_assoc, ← List.append_assoc, ← List.append_assoc]
    rfl
  · cases e with
    | i2cWriteRead x => exact ⟨fun _ => Or.inl ⟨x, rfl⟩, fun _ => List.prefix_append _ _⟩
    | i2cWrite x => exact ⟨fun _ => Or.inr ⟨x, rfl⟩, fun _ => List.prefix_append _ _⟩
    | library x =>
      refine ⟨fun h => ?_, fun h => ?_⟩
      · exact absurd (List.cons_prefix_cons.1 h).1 (by decide)
      · rcases h with ⟨y, h⟩ | ⟨y, h⟩ <;> exact nomatch h
  · cases e with
    | library x => exact ⟨fun _ => ⟨x, rfl⟩, fun _ => List.prefix_append _ _⟩
    | i2cWrite x =>
      refine ⟨fun h => ?_, fun ⟨y, h⟩ => nomatch h⟩
      exact absurd (List.cons_prefix_cons.1 h).1 (by decide)
    | i2cWriteRead x =>
      refine ⟨fun h => ?_, fun ⟨y, h⟩ => nomatch h⟩
      exact absurd (List.cons_prefix_cons.1 h).1 (by decide)
  · have diff : ∀ {p q a b : List Char}, 17 ≤ p.length → 17 ≤ q.length → p ++ a ++ [')'] = q ++ b ++ [')'] →
        p.take 17 = q.take 17 := by
      intro p q a b hp hq hh
      rw [List.append_assoc, List.append_assoc] at hh
      have h1 : (p ++ (a ++ [')'])).take 17 = p.take 17 := List.take_append_of_le_length hp
      have h2 : (q ++ (b ++ [')'])).take 17 = q.take 17 := List.take_append_of_le_length hq
      rw [← h1, hh, h2]
    have strip : ∀ {p a b : List Char}, p ++ a ++ [')'] = p ++ b ++ [')'] → a = b := fun hh =>
      List.append_cancel_left (List.append_cancel_right hh)
    cases e <;> cases e'
    case i2cWriteRead.i2cWriteRead x y => exact Or.inl ⟨x, y, rfl, rfl, strip h⟩
    case i2cWrite.i2cWrite x y => exact Or.inr (Or.inl ⟨x, y, rfl, rfl, strip h⟩)
    case library.library x y => exact Or.inr (Or.inr ⟨x, y, rfl, rfl, strip h⟩)
    all_goals
      exact absurd (diff (by decide) (by decide) h) (by decide)

/-- Addresses are shown in hexadecimal, without leading zeros. -/
theorem C87_address_texts (a : Word) :
    ∃ ds, Denotes hexDigits ds a.toNat ∧ (a.toNat ≠ 0 → ds.head? ≠ some '0') ∧ 1 ≤ ds.length ∧ ds.length ≤ 4 ∧
      debugAddress a = "Address(0x".toList ++ ds ++ [')'] := by
  have h3 := hexUpper_length 3 a.toNat a.isLt
  refine ⟨_, hexUpper_denotes _, hexUpper_head _, h3.1, h3.2, ?_⟩
  show "Address(".toList ++ ("0x".toList ++ _) ++ _ = _
  rw [← List.append_assoc]
  rfl

/-- An uncorrectable EEPROM word. -/
example : (LibErr.checksum 0x0A5F#16).display = "Invalid checksum for data 0x0A5F".toList ∧
    Err.display (fun e : String => e.toList) (fun e : String => e.toList) (.library (.checksum 0x0A5F#16)) =
      "Library Error: Checksum(2655)".toList ∧
    debugAddress 0x0400#16 = "Address(0x400)".toList := by decide +kernel

end Mlx.Props
