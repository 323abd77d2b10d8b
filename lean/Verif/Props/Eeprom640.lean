import Verif.Proofs.Parse640
import Verif.Proofs.Example
import Verif.Proofs.Calc
import Verif.Props.Numeric
/-
C24 to C31 and C38 for the MLX90640: decoding an EEPROM dump.
-/
set_option linter.unusedSectionVars false
set_option autoImplicit false
namespace Mlx.Props
open Mlx Mlx.Spec Mlx.Proofs F32Ops
variable {F ε : Type} [F32Ops F] {data : List Byte}

theorem fromData_tooShort (m : Mode) (h : data.length < 831) :
    Mlx90640.fromData (F := F) m data =
      .err (.other "Not enough space left in buffer to be a full EEPROM dump") := by
  unfold Mlx90640.fromData
  exact if_pos h

theorem accepted640 {m : Mode} {c : Mlx90640.Calibration F} (h : Mlx90640.fromData m data = .ok c) :
    1664 ≤ data.length ∧ (∀ i < 768, m = .wrapping ∨ Ee640.SumsFit (eepromWord data) i) ∧
      c = decode640 (eepromWord data) := by
  rcases Nat.lt_or_ge data.length 831 with h1 | h1
  · rw [fromData_tooShort m h1] at h; cases h
  rcases Nat.lt_or_ge data.length 1664 with h2 | h2
  · rw [fromData_short m h1 h2] at h; cases h
  · rw [fromData_eq m h2] at h
    exact ⟨h2, onlyIf_ok h⟩

theorem eepromWord_congr {data data' : List Byte} (h : data.take 1664 = data'.take 1664) (k : Nat) (hk : k < 832) :
    eepromWord data (0x2400 + k) = eepromWord data' (0x2400 + k) := by
  have key : ∀ j, j < 1664 → data.getD j 0#8 = data'.getD j 0#8 := by
    intro j hj
    rw [List.getD_eq_getElem?_getD, List.getD_eq_getElem?_getD, ← List.getElem?_take_of_lt hj, h,
      List.getElem?_take_of_lt hj]
  unfold eepromWord
  rw [Nat.add_sub_cancel_left, key _ (by omega), key _ (by omega)]

/-- Everything but the pixels depends only on the words below 0x2440, and those from 0x243D on are only used for the temperature ranges. -/
theorem ranges640_congr {E E' : Nat → Word} (ha : ∀ a, 0x2410 ≤ a → a < 0x243D → E a = E' a) (outs : List (Mlx90640.PixelOut F)) :
    decode640With (F := F) E outs = { decode640With (F := F) E' outs with
      cornerTemps := cornerTemps640 E
      kSTo := kSTo640 E
      alphaCorrection := (List.range 4).map (corr 1 (cornerTemps640 E) (kSTo640 E)) } := by
  have k2 : kTaScale (F := F) E = kTaScale E' := by
    unfold kTaScale Ee640.kTaScaleExp; rw [ha 0x2438 (by decide) (by decide)]
  have c3 : kVScale (F := F) E = kVScale E' := by unfold kVScale; rw [ha 0x2438 (by decide) (by decide)]
  have c4 : alphaCp640 (F := F) E = alphaCp640 E' := by
    unfold alphaCp640; rw [ha 0x2439 (by decide) (by decide), ha 0x2420 (by decide) (by decide)]
  have c5 : il1 (F := F) E = il1 E' := by unfold il1; rw [ha 0x2435 (by decide) (by decide)]
  have c6 : il2 (F := F) E = il2 E' := by unfold il2; rw [ha 0x2435 (by decide) (by decide)]
  have c7 : il3 (F := F) E = il3 E' := by unfold il3; rw [ha 0x2435 (by decide) (by decide)]
  unfold decode640With
  rw [c3, c4, c5, c6, c7, k2, ha 0x2410 (by decide) (by decide), ha 0x2430 (by decide) (by decide),
    ha 0x2431 (by decide) (by decide), ha 0x2432 (by decide) (by decide), ha 0x2433 (by decide) (by decide),
    ha 0x2434 (by decide) (by decide), ha 0x2438 (by decide) (by decide), ha 0x2439 (by decide) (by decide),
    ha 0x243A (by decide) (by decide), ha 0x243B (by decide) (by decide), ha 0x243C (by decide) (by decide)]

/-- Each pixel depends only on the words below 0x243D and on its own word. -/
theorem pixel640_congr {E E' : Nat → Word} (ha : ∀ a, 0x2410 ≤ a → a < 0x243D → E a = E' a) (i : Nat) (hi : i < 768)
    (hw : E (0x2440 + i) = E' (0x2440 + i)) :
    pixel640 (F := F) E i = pixel640 E' i ∧ (Ee640.SumsFit E i ↔ Ee640.SumsFit E' i) := by
  have hn : ∀ b k, 0x2410 ≤ b → b + k / 4 < 0x243D → Ee640.nibbleTable E b k = Ee640.nibbleTable E' b k := by
    intro b k h1 h2
    unfold Ee640.nibbleTable
    rw [ha _ (by omega) h2]
  have hrow : ∀ i < 768, Ee640.row i < 24 := by intro i hi; unfold Ee640.row; omega
  have hcol : ∀ i, Ee640.col i < 32 := by intro i; unfold Ee640.col; omega
  have o1 : Ee640.offsetAverage E = Ee640.offsetAverage E' := by
    unfold Ee640.offsetAverage; rw [ha 0x2411 (by decide) (by decide)]
  have o2 : ∀ i < 768, Ee640.offsetRow E i = Ee640.offsetRow E' i := by
    intro i hi; have := hrow i hi
    unfold Ee640.offsetRow; rw [ha 0x2410 (by decide) (by decide), hn _ _ (by decide) (by omega)]
  have o3 : ∀ i, Ee640.offsetCol E i = Ee640.offsetCol E' i := by
    intro i; have := hcol i
    unfold Ee640.offsetCol; rw [ha 0x2410 (by decide) (by decide), hn _ _ (by decide) (by omega)]
  have a1 : Ee640.alphaAverage E = Ee640.alphaAverage E' := by
    unfold Ee640.alphaAverage; rw [ha 0x2421 (by decide) (by decide)]
  have a2 : ∀ i < 768, Ee640.alphaRow E i = Ee640.alphaRow E' i := by
    intro i hi; have := hrow i hi
    unfold Ee640.alphaRow; rw [ha 0x2420 (by decide) (by decide), hn _ _ (by decide) (by omega)]
  have a3 : ∀ i, Ee640.alphaCol E i = Ee640.alphaCol E' i := by
    intro i; have := hcol i
    unfold Ee640.alphaCol; rw [ha 0x2420 (by decide) (by decide), hn _ _ (by decide) (by omega)]
  have k1 : ∀ i, Ee640.kTaRc E i = Ee640.kTaRc E' i := by
    intro i; unfold Ee640.kTaRc; rw [ha 0x2436 (by decide) (by decide), ha 0x2437 (by decide) (by decide)]
  have k2 : kTaScale (F := F) E = kTaScale E' := by
    unfold kTaScale Ee640.kTaScaleExp; rw [ha 0x2438 (by decide) (by decide)]
  have k3 : alphaScale (F := F) E = alphaScale E' := by
    unfold alphaScale Ee640.alphaScaleExp; rw [ha 0x2420 (by decide) (by decide)]
  constructor
  · unfold pixel640 offsetBulk alphaBulk
    rw [o1, o2 i hi, o3, a1, a2 i hi, a3, k1, k2, k3, ha 0x2410 (by decide) (by decide),
      ha 0x2420 (by decide) (by decide), ha 0x2438 (by decide) (by decide), hw]
  · unfold Ee640.SumsFit Ee640.isFailed Ee640.offsetRest Ee640.kTaRest
    rw [o1, o2 i hi, o3, a1, a2 i hi, a3, k1, ha 0x2410 (by decide) (by decide),
      ha 0x2438 (by decide) (by decide), hw]

/-- Everything but the pixels depends only on the words below 0x2440, each pixel on these and on its own word. -/
theorem shared640_congr {E E' : Nat → Word} (ha : ∀ a, 0x2410 ≤ a → a < 0x2440 → E a = E' a) :
    (∀ outs, decode640With (F := F) E outs = decode640With E' outs) ∧
    ∀ i < 768, E (0x2440 + i) = E' (0x2440 + i) →
      pixel640 (F := F) E i = pixel640 E' i ∧ (Ee640.SumsFit E i ↔ Ee640.SumsFit E' i) := by
  have hb : ∀ a, 0x2410 ≤ a → a < 0x243D → E a = E' a := fun a h1 h2 => ha a h1 (by omega)
  refine ⟨fun outs => ?_, pixel640_congr hb⟩
  have c1 : cornerTemps640 E = cornerTemps640 E' := by
    unfold cornerTemps640 Ee640.ct4 Ee640.ct3 Ee640.ctStep; rw [ha 0x243F (by decide) (by decide)]
  have c2 : kSTo640 (F := F) E = kSTo640 E' := by
    unfold kSTo640
    rw [ha 0x243D (by decide) (by decide), ha 0x243E (by decide) (by decide), ha 0x243F (by decide) (by decide)]
  rw [ranges640_congr hb outs, c1, c2]
  exact (ranges640_congr (fun _ _ _ => rfl) outs).symm

/-- Decoding looks at no other words than those from 0x2410 to 0x273F. -/
theorem decode640_congr {E E' : Nat → Word} (h : ∀ k, 16 ≤ k → k < 832 → E (0x2400 + k) = E' (0x2400 + k)) :
    decode640 (F := F) E = decode640 E' ∧ ∀ i < 768, (Ee640.SumsFit E i ↔ Ee640.SumsFit E' i) := by
  have ha : ∀ a, 0x2410 ≤ a → a < 0x2740 → E a = E' a := by
    intro a h1 h2
    have := h (a - 0x2400) (by omega) (by omega)
    rwa [show 0x2400 + (a - 0x2400) = a by omega] at this
  obtain ⟨h1, h2⟩ := shared640_congr (F := F) fun a a1 a2 => ha a a1 (by omega)
  have h2 := fun i hi => h2 i hi (ha (0x2440 + i) (by omega) (by omega))
  refine ⟨?_, fun i hi => (h2 i hi).2⟩
  have hp : pixels640 (F := F) E = pixels640 E' := by
    unfold pixels640
    exact List.map_congr_left fun i hi => (h2 i (List.mem_range.1 hi)).1
  unfold decode640
  rw [hp, h1]

theorem fromData_congr {data data' : List Byte} (m : Mode) (h : 1664 ≤ data.length) (h' : 1664 ≤ data'.length)
    (he : ∀ k, 16 ≤ k → k < 832 → eepromWord data (0x2400 + k) = eepromWord data' (0x2400 + k)) :
    Mlx90640.fromData (F := F) m data = Mlx90640.fromData m data' := by
  obtain ⟨h1, h2⟩ := decode640_congr (F := F) he
  rw [fromData_eq m h, fromData_eq m h', h1]
  exact onlyIf_congr (forall_congr' fun i => imp_congr_right fun hi => or_congr_right (h2 i hi)) fun _ => rfl

/-- **C24.** What the length of the dump decides: below 831 bytes an error; from there to 1663 a panic; from 1664 on
no failure for the length (a checked build may still panic on overflow, see C26), and the bytes after the first 1664
have no influence. -/
theorem C24_dump_length (m : Mode) (data : List Byte) :
    ((∃ msg, Mlx90640.fromData (F := F) m data = .err (.other msg)) ↔ data.length < 831) ∧
    (831 ≤ data.length → data.length < 1664 → Mlx90640.fromData (F := F) m data = .panic) ∧
    (1664 ≤ data.length →
      (∀ e, Mlx90640.fromData (F := F) m data ≠ .err e) ∧
      (∃ c, Mlx90640.fromData (F := F) .wrapping data = .ok c) ∧
      Mlx90640.fromData (F := F) m data = Mlx90640.fromData m (data.take 1664)) := by
  refine ⟨⟨fun ⟨msg, h⟩ => ?_, fun h => ⟨_, fromData_tooShort m h⟩⟩, fromData_short m, fun h => ⟨fun e he => ?_, ?_, ?_⟩⟩
  · by_contra hl
    rcases Nat.lt_or_ge data.length 1664 with h2 | h2
    · rw [fromData_short m (by omega) h2] at h; cases h
    · rw [fromData_eq m h2] at h
      by_cases hp : ∀ i < 768, m = .wrapping ∨ Ee640.SumsFit (eepromWord data) i
      · rw [onlyIf_pos hp] at h; cases h
      · rw [onlyIf_neg hp] at h; cases h
  · rw [fromData_eq m h] at he
    by_cases hp : ∀ i < 768, m = .wrapping ∨ Ee640.SumsFit (eepromWord data) i
    · rw [onlyIf_pos hp] at he; cases he
    · rw [onlyIf_neg hp] at he; cases he
  · exact ⟨_, by rw [fromData_eq _ h, onlyIf_pos fun _ _ => Or.inl rfl]⟩
  · refine fromData_congr m h (by rw [List.length_take]; omega) fun k _ hk => ?_
    exact eepromWord_congr (by rw [List.take_take, Nat.min_self]) k hk

/-- **C38 (MLX90640).** The first sixteen words (device options and identifiers) never influence the calibration. -/
theorem C38_header_ignored_640 (m : Mode) (data data' : List Byte) (hl : data.length = data'.length)
    (h : data.drop 32 = data'.drop 32) :
    Mlx90640.fromData (F := F) m data = Mlx90640.fromData m data' := by
  rcases Nat.lt_or_ge data.length 831 with h1 | h1
  · rw [fromData_tooShort m h1, fromData_tooShort m (by omega)]
  rcases Nat.lt_or_ge data.length 1664 with h2 | h2
  · rw [fromData_short m h1 h2, fromData_short m (by omega) (by omega)]
  · refine fromData_congr m h2 (by omega) fun k hk _ => ?_
    have key : ∀ j, 32 ≤ j → data.getD j 0#8 = data'.getD j 0#8 := by
      intro j hj
      have := congrArg (fun l => l[j - 32]?) h
      simp only [List.getElem?_drop, show 32 + (j - 32) = j by omega] at this
      rw [List.getD_eq_getElem?_getD, List.getD_eq_getElem?_getD, this]
    unfold eepromWord
    rw [Nat.add_sub_cancel_left, key _ (by omega), key _ (by omega)]

/-! ### The example image is accepted, the overflowing one is not -/

instance (E : Nat → Word) (i : Nat) : Decidable (Ee640.SumsFit E i) := by
  unfold Ee640.SumsFit; infer_instance

theorem example640_fits : ∀ i < 768, Ee640.SumsFit (eepromWord example640) i := by
  have key : ∀ i < 768, Ee640.SumsFit (fun a => BitVec.ofNat 16 (words640 (a - 0x2400))) i := by decide +kernel
  have h := (decode640_congr (F := Int) (E := eepromWord example640)
    (E' := fun a => BitVec.ofNat 16 (words640 (a - 0x2400))) fun k _ hk => by
      show eepromWord (dump words640) (0x2400 + k) = BitVec.ofNat 16 (words640 (0x2400 + k - 0x2400))
      rw [eepromWord_dump _ _ hk, Nat.add_sub_cancel_left]).2
  exact fun i hi => (h i hi).2 (key i hi)

/-- The example image is accepted by both builds. -/
theorem example640_accepted (m : Mode) : ∃ c, Mlx90640.fromData (F := F) m example640 = .ok c :=
  ⟨_, by rw [fromData_eq m (by unfold example640; rw [dump_length]), onlyIf_pos fun i hi => Or.inr (example640_fits i hi)]⟩

/-! ### Pixels -/

theorem px_get {E : Nat → Word} {α : Type} (f : Mlx90640.PixelOut F → α) (i : Nat) (hi : i < 768) :
    ((pixels640 (F := F) E).map f)[i]? = some (f (pixel640 E i)) := by
  rw [List.getElem?_map, pixels640_get E hi]; rfl

/-- **C26.** Whether a full dump is accepted and what the pixel offsets are. A release build accepts every full dump;
a checked build panics exactly when one of the `i16` sums does not fit. The offset of every pixel is the documented
sum, reduced to 16 bits; when the documented sum fits, it is that sum. -/
theorem C26_offsets (data : List Byte) (h : 1664 ≤ data.length) :
    (∃ c, Mlx90640.fromData (F := F) .wrapping data = .ok c) ∧
    ((∃ c, Mlx90640.fromData (F := F) .checked data = .ok c) ↔ ∀ i < 768, Ee640.SumsFit (eepromWord data) i) ∧
    (Mlx90640.fromData (F := F) .checked data = .panic ↔ ∃ i < 768, ¬ Ee640.SumsFit (eepromWord data) i) ∧
    ∀ m c, Mlx90640.fromData (F := F) m data = .ok c → ∀ s, ∀ i < 768,
      (c.toCalib.offsetRef s)[i]? = some (wrap16 (offset640 (eepromWord data) i)) ∧
      (Fits16 (offset640 (eepromWord data) i) →
        (c.toCalib.offsetRef s)[i]? = some (offset640 (eepromWord data) i)) := by
  have hc : (∀ i < 768, Mode.checked = .wrapping ∨ Ee640.SumsFit (eepromWord data) i) ↔
      ∀ i < 768, Ee640.SumsFit (eepromWord data) i :=
    forall_congr' fun i => imp_congr_right fun _ => ⟨fun h => h.resolve_left (by decide), Or.inr⟩
  refine ⟨⟨_, by rw [fromData_eq _ h, onlyIf_pos fun _ _ => Or.inl rfl]⟩, ⟨fun ⟨c, hok⟩ => ?_, fun hs => ?_⟩,
    ⟨fun hp => ?_, fun ⟨i, hi, hn⟩ => ?_⟩, fun m c hok s i hi => ?_⟩
  · exact hc.1 (accepted640 hok).2.1
  · exact ⟨_, by rw [fromData_eq _ h, onlyIf_pos (hc.2 hs)]⟩
  · by_contra hno
    have hs : ∀ i < 768, Ee640.SumsFit (eepromWord data) i := by
      intro i hi; by_contra hn; exact hno ⟨i, hi, hn⟩
    rw [fromData_eq _ h, onlyIf_pos (hc.2 hs)] at hp
    cases hp
  · rw [fromData_eq _ h, onlyIf_neg]
    exact fun hs => hn (hc.1 hs i hi)
  · obtain ⟨_, _, rfl⟩ := accepted640 hok
    have key : ((decode640 (F := F) (eepromWord data)).toCalib.offsetRef s)[i]? =
        some (wrap16 (offset640 (eepromWord data) i)) := by
      refine (px_get _ i hi).trans (congrArg some ?_)
      unfold pixel640 pixelOf offset640 offsetBulk Ee640.isFailed
      by_cases h0 : eepromWord data (0x2440 + i) = 0#16
      · rw [if_pos h0, if_pos (decide_eq_true h0), Int.add_zero]
      · rw [if_neg h0, if_neg (by simpa using h0)]
        simp only
        rw [wrap16_add_wrap16]; rfl
    exact ⟨key, fun hf => by rw [key, wrap16_fits hf]⟩

/-- The hypotheses of `C26_offsets` met with both outcomes, and an offset worked out: pixel (row 12, column 16) of the
datasheet's example has offset -75. -/
example : (∀ i < 768, Ee640.SumsFit (eepromWord example640) i) ∧
    offset640 (fun a => BitVec.ofNat 16 (words640 (a - 0x2400))) (11 * 32 + 15) = -75 :=
  ⟨example640_fits, by decide +kernel⟩

theorem overflow640_panics : Mlx90640.fromData (F := F) .checked overflow640 = .panic := by
  have hw : eepromWord overflow640 0x2411 = 0x7FFF#16 ∧ eepromWord overflow640 0x2410 = 0x4C10#16 ∧
      eepromWord overflow640 0x2412 = 0x0202#16 := by
    refine ⟨?_, ?_, ?_⟩
    · exact (eepromWord_dump _ 17 (by decide)).trans (by decide)
    · exact (eepromWord_dump _ 16 (by decide)).trans (by decide)
    · exact (eepromWord_dump _ 18 (by decide)).trans (by decide)
  have hl : 1664 ≤ overflow640.length := by unfold overflow640; rw [dump_length]
  refine ((C26_offsets overflow640 hl).2.2.1).2 ⟨0, by decide, fun hs => ?_⟩
  have := hs.1
  unfold Ee640.offsetAverage Ee640.offsetRow Ee640.nibbleTable Ee640.row at this
  rw [show 0x2412 + 0 / 32 / 4 = 0x2412 by decide, hw.1, hw.2.1, hw.2.2] at this
  revert this
  decide

/-- **C27.** A pixel is flagged as failed exactly when its EEPROM word is zero and as an outlier exactly when bit 0 of
the word is set; so no pixel is both. There is one flag for each of the 768 pixels. -/
theorem C27_flags (m : Mode) (data : List Byte) (c : Mlx90640.Calibration F) (h : Mlx90640.fromData m data = .ok c) :
    c.toCalib.failed.length = 768 ∧ c.toCalib.outlier.length = 768 ∧
    ∀ i < 768,
      c.toCalib.failed[i]? = some (decide (eepromWord data (0x2440 + i) = 0#16)) ∧
      c.toCalib.outlier[i]? = some ((eepromWord data (0x2440 + i)).getLsbD 0) ∧
      ¬ (c.toCalib.failed[i]? = some true ∧ c.toCalib.outlier[i]? = some true) := by
  obtain ⟨_, _, rfl⟩ := accepted640 h
  have hl : ∀ {α : Type} (f : Mlx90640.PixelOut F → α),
      ((pixels640 (F := F) (eepromWord data)).map f).length = 768 := by
    intro α f; rw [List.length_map, pixels640_length]
  refine ⟨hl _, hl _, fun i hi => ?_⟩
  have h1 : (decode640 (F := F) (eepromWord data)).toCalib.failed[i]? =
      some (decide (eepromWord data (0x2440 + i) = 0#16)) := by
    refine (px_get _ i hi).trans (congrArg some ?_)
    unfold pixel640 pixelOf
    by_cases h0 : eepromWord data (0x2440 + i) = 0#16
    · rw [if_pos h0]; exact (decide_eq_true h0).symm
    · rw [if_neg h0]; exact (decide_eq_false h0).symm
  have h2 : (decode640 (F := F) (eepromWord data)).toCalib.outlier[i]? =
      some ((eepromWord data (0x2440 + i)).getLsbD 0) := by
    refine (px_get _ i hi).trans (congrArg some ?_)
    unfold pixel640 pixelOf
    by_cases h0 : eepromWord data (0x2440 + i) = 0#16
    · rw [if_pos h0, h0]; rfl
    · rw [if_neg h0]
  refine ⟨h1, h2, fun ⟨ha, hb⟩ => ?_⟩
  rw [h1] at ha; rw [h2] at hb
  have ha' := of_decide_eq_true (Option.some.inj ha)
  rw [ha'] at hb
  exact absurd (Option.some.inj hb) (by decide)

/-- Both flags occur: pixel 5 of the example is broken, pixel 7 an outlier. -/
example : eepromWord example640 (0x2440 + 5) = 0#16 ∧ (eepromWord example640 (0x2440 + 7)).getLsbD 0 = true := by
  have h5 : eepromWord example640 (0x2440 + 5) = 0#16 := (eepromWord_dump _ 69 (by decide)).trans (by decide)
  have h7 : eepromWord example640 (0x2440 + 7) = 0x08a1#16 := (eepromWord_dump _ 71 (by decide)).trans (by decide)
  rw [h5, h7]; decide

attribute [local irreducible] Mlx90640.chessboardIter Mlx90640.accessPatternCompensation in
theorem toCalib_kV (c : Mlx90640.Calibration F) (s : Subpage) :
    c.toCalib.kV s = Mlx90640.chessboardIter c.kVPattern := rfl

attribute [local irreducible] Mlx90640.chessboardIter Mlx90640.accessPatternCompensation in
theorem toCalib_apComp (c : Mlx90640.Calibration F) (a : AccessPattern) :
    c.toCalib.apComp a = Mlx90640.accessPatternCompensation c.ilPixels a := rfl

theorem chess_length {α : Type} (v : α × α × α × α) : (Mlx90640.chessboardIter v).length = 768 := by
  unfold Mlx90640.chessboardIter
  rw [List.length_map, List.length_range]; rfl

theorem pattern_length (v : (F × F × F) × (F × F × F)) (a : AccessPattern) :
    (Mlx90640.accessPatternCompensation v a).length = 768 := by
  cases a
  · unfold Mlx90640.accessPatternCompensation; rw [List.length_replicate]; rfl
  · unfold Mlx90640.accessPatternCompensation; rw [List.length_map, List.length_range]; rfl

/-- **C28 (MLX90640).** Every per-pixel sequence of an accepted calibration has 768 items, for every subpage and
access pattern; there are four temperature ranges. -/
theorem C28_complete_640 (m : Mode) (data : List Byte) (c : Mlx90640.Calibration F)
    (h : Mlx90640.fromData m data = .ok c) :
    c.toCalib.cam.numPixels = 768 ∧ Complete c.toCalib 768 ∧
    c.toCalib.failed.length = 768 ∧ c.toCalib.outlier.length = 768 ∧
    c.toCalib.cornerTemps.length = 4 ∧ c.toCalib.kSTo.length = 4 ∧ c.toCalib.alphaCorrection.length = 4 := by
  obtain ⟨_, _, rfl⟩ := accepted640 h
  have hl : ∀ {α : Type} (f : Mlx90640.PixelOut F → α),
      ((pixels640 (F := F) (eepromWord data)).map f).length = 768 := by
    intro α f; rw [List.length_map, pixels640_length]
  refine ⟨rfl, ⟨fun _ => hl _, fun _ => hl _, fun _ => ?_, fun _ => hl _, fun a => ?_, ?_⟩, hl _, hl _, rfl, rfl, ?_⟩
  · rw [toCalib_kV]; exact chess_length _
  · exact pattern_length (decode640 (F := F) (eepromWord data)).ilPixels a
  · show 1 < 4; decide
  · show (List.map _ _).length = 4
    rw [List.length_map, List.length_range]

/-! ### Real-valued parameters -/

theorem real_exp2_nat (n : Nat) : (exp2 (ofInt (n : Int)) : ℝ) = 2 ^ n := by
  show (2 : ℝ) ^ (((n : Int) : ℝ)) = 2 ^ n
  rw [Int.cast_natCast, Real.rpow_natCast]

theorem real_exp2_lit (n : Nat) : (exp2 (lit (n : Rat)) : ℝ) = 2 ^ n := by
  show (2 : ℝ) ^ (((n : Rat) : ℝ)) = 2 ^ n
  rw [Rat.cast_natCast, Real.rpow_natCast]

theorem scalars640 (E : Nat → Word) :
    let k := (decode640 (F := ℝ) E).toCalib
    -- frame-wide parameters
    k.gain = signedAt (E 0x2430) 0 16 ∧
    k.vptat25 = signedAt (E 0x2431) 0 16 ∧
    k.kVptat = signedAt (E 0x2432) 10 6 / 2 ^ 12 ∧
    k.kTptat = signedAt (E 0x2432) 0 10 / 2 ^ 3 ∧
    k.kVdd = signedAt (E 0x2433) 8 8 * 2 ^ 5 ∧
    k.vdd25 = ((bitsAt (E 0x2433) 0 8 : Int) - 256) * 2 ^ 5 - 2 ^ 13 ∧
    k.vdd0 = 3.3 ∧
    k.alphaPtat = (bitsAt (E 0x2410) 12 4 / 4 : Nat) + 8 ∧
    k.kSTa = signedAt (E 0x243C) 8 8 / 2 ^ 13 ∧
    k.tgc.getD 0 = signedAt (E 0x243C) 0 8 / 2 ^ 5 ∧ (k.tgc = none ↔ signedAt (E 0x243C) 0 8 = 0) ∧
    k.emissivity = none ∧
    k.resolution = CtrlField.resolution.decode (bitsAt (E 0x2438) 12 2) ∧
    -- temperature ranges
    k.cornerTemps = [-40, 0, Ee640.ct3 E, Ee640.ct4 E] ∧
    k.kSTo = [(signedAt (E 0x243D) 0 8 : ℝ) / 2 ^ (bitsAt (E 0x243F) 0 4 + 8),
      (signedAt (E 0x243D) 8 8 : ℝ) / 2 ^ (bitsAt (E 0x243F) 0 4 + 8),
      (signedAt (E 0x243E) 0 8 : ℝ) / 2 ^ (bitsAt (E 0x243F) 0 4 + 8),
      (signedAt (E 0x243E) 8 8 : ℝ) / 2 ^ (bitsAt (E 0x243F) 0 4 + 8)] ∧
    -- compensation pixels
    k.offsetRefCp .zero = signedAt (E 0x243A) 0 10 ∧
    k.offsetRefCp .one = signedAt (E 0x243A) 0 10 + signedAt (E 0x243A) 10 6 ∧
    k.alphaCp .zero = bitsAt (E 0x2439) 0 10 / 2 ^ (bitsAt (E 0x2420) 12 4 + 27) ∧
    k.alphaCp .one = k.alphaCp .zero * (1 + signedAt (E 0x2439) 10 6 / 2 ^ 7) ∧
    (∀ s, k.kVCp s = signedAt (E 0x243B) 8 8 / 2 ^ bitsAt (E 0x2438) 8 4) ∧
    (∀ s, k.kTaCp s = signedAt (E 0x243B) 0 8 / 2 ^ (bitsAt (E 0x2438) 4 4 + 8)) := by
  intro k
  refine ⟨rfl, rfl, ?_, ?_, ?_, rfl, ?_, ?_, ?_, ?_, ?_, rfl, ?_, ?_, ?_, ?_, ?_, ?_, ?_, fun s => ?_, fun s => ?_⟩
  · show ((signedAt (E 0x2432) 10 6 : Int) : ℝ) / ((4096 : Rat) : ℝ) = _
    norm_num
  · show ((signedAt (E 0x2432) 0 10 : Int) : ℝ) / ((8 : Rat) : ℝ) = _
    norm_num
  · simp only [k, Mlx90640.Calibration.toCalib, decode640, decode640With]
    apply wrap16_fits
    have : -128 ≤ signedAt (E 0x2433) 8 8 ∧ signedAt (E 0x2433) 8 8 < 128 := by
      unfold signedAt
      rw [Int.bmod_def]; split <;> omega
    unfold Fits16; omega
  · show (((33 / 10 : Rat)) : ℝ) = 3.3
    norm_num
  · show (((bitsAt (E 0x2410) 12 4 / 4 + 8 : Nat) : Int) : ℝ) = _
    push_cast; rfl
  · show ((signedAt (E 0x243C) 8 8 : Int) : ℝ) / exp2 (lit ((13 : Nat) : Rat)) = _
    rw [real_exp2_lit]
  · simp only [k, Mlx90640.Calibration.toCalib, decode640, decode640With]
    by_cases h0 : signedAt (E 0x243C) 0 8 = 0
    · rw [if_pos h0, h0]; simp
    · rw [if_neg h0]
      show ((signedAt (E 0x243C) 0 8 : Int) : ℝ) / exp2 (lit ((5 : Nat) : Rat)) = _
      rw [real_exp2_lit]
  · simp only [k, Mlx90640.Calibration.toCalib, decode640, decode640With]
    by_cases h0 : signedAt (E 0x243C) 0 8 = 0
    · rw [if_pos h0]; exact ⟨fun _ => h0, fun _ => rfl⟩
    · rw [if_neg h0]; exact ⟨(fun h => nomatch h), fun h => absurd h h0⟩
  · show CtrlField.resolution.decode (bitsAt (E 0x2438) 12 2) = _
    with_reducible rfl
  · show cornerTemps640 E = _
    unfold cornerTemps640
    with_reducible rfl
  · show kSTo640 E = _
    unfold kSTo640
    rw [real_exp2_nat]; rfl
  · simp only [k, Mlx90640.Calibration.toCalib, decode640, decode640With]
  · simp only [k, Mlx90640.Calibration.toCalib, decode640, decode640With]
  · show ((bitsAt (E 0x2439) 0 10 : Int) : ℝ) / exp2 (ofInt (bitsAt (E 0x2420) 12 4 + 27 : Nat)) = _
    rw [real_exp2_nat]; push_cast; rfl
  · show alphaCp640 E * (((1 : Rat) : ℝ) + ((signedAt (E 0x2439) 10 6 : Int) : ℝ) / exp2 (lit ((7 : Nat) : Rat))) =
      alphaCp640 E * _
    rw [real_exp2_lit]; push_cast; rfl
  · show ((signedAt (E 0x243B) 8 8 : Int) : ℝ) / exp2 (ofInt (bitsAt (E 0x2438) 8 4 : Nat)) = _
    rw [real_exp2_nat]
  · show ((signedAt (E 0x243B) 0 8 : Int) : ℝ) / exp2 (ofInt (bitsAt (E 0x2438) 4 4 + 8 : Nat)) = _
    rw [real_exp2_nat]

/-- **C25.** Every scalar parameter of an accepted calibration is the datasheet's formula (section 11.2.2) applied to
the documented word. `alpha_ptat` is the documented quotient with its fractional part dropped, see C61. -/
theorem C25_scalars (m : Mode) (data : List Byte) (c : Mlx90640.Calibration ℝ)
    (h : Mlx90640.fromData m data = .ok c) :
    let E := eepromWord data
    let k := c.toCalib
    -- frame-wide parameters
    k.gain = signedAt (E 0x2430) 0 16 ∧
    k.vptat25 = signedAt (E 0x2431) 0 16 ∧
    k.kVptat = signedAt (E 0x2432) 10 6 / 2 ^ 12 ∧
    k.kTptat = signedAt (E 0x2432) 0 10 / 2 ^ 3 ∧
    k.kVdd = signedAt (E 0x2433) 8 8 * 2 ^ 5 ∧
    k.vdd25 = ((bitsAt (E 0x2433) 0 8 : Int) - 256) * 2 ^ 5 - 2 ^ 13 ∧
    k.vdd0 = 3.3 ∧
    k.alphaPtat = (bitsAt (E 0x2410) 12 4 / 4 : Nat) + 8 ∧
    k.kSTa = signedAt (E 0x243C) 8 8 / 2 ^ 13 ∧
    k.tgc.getD 0 = signedAt (E 0x243C) 0 8 / 2 ^ 5 ∧ (k.tgc = none ↔ signedAt (E 0x243C) 0 8 = 0) ∧
    k.emissivity = none ∧
    k.resolution = CtrlField.resolution.decode (bitsAt (E 0x2438) 12 2) ∧
    -- temperature ranges
    k.cornerTemps = [-40, 0, Ee640.ct3 E, Ee640.ct4 E] ∧
    k.kSTo = [(signedAt (E 0x243D) 0 8 : ℝ) / 2 ^ (bitsAt (E 0x243F) 0 4 + 8),
      (signedAt (E 0x243D) 8 8 : ℝ) / 2 ^ (bitsAt (E 0x243F) 0 4 + 8),
      (signedAt (E 0x243E) 0 8 : ℝ) / 2 ^ (bitsAt (E 0x243F) 0 4 + 8),
      (signedAt (E 0x243E) 8 8 : ℝ) / 2 ^ (bitsAt (E 0x243F) 0 4 + 8)] ∧
    -- compensation pixels
    k.offsetRefCp .zero = signedAt (E 0x243A) 0 10 ∧
    k.offsetRefCp .one = signedAt (E 0x243A) 0 10 + signedAt (E 0x243A) 10 6 ∧
    k.alphaCp .zero = bitsAt (E 0x2439) 0 10 / 2 ^ (bitsAt (E 0x2420) 12 4 + 27) ∧
    k.alphaCp .one = k.alphaCp .zero * (1 + signedAt (E 0x2439) 10 6 / 2 ^ 7) ∧
    (∀ s, k.kVCp s = signedAt (E 0x243B) 8 8 / 2 ^ bitsAt (E 0x2438) 8 4) ∧
    (∀ s, k.kTaCp s = signedAt (E 0x243B) 0 8 / 2 ^ (bitsAt (E 0x2438) 4 4 + 8)) := by
  obtain ⟨_, _, rfl⟩ := accepted640 h
  exact scalars640 (eepromWord data)

/-- The parameters of the worked example in the datasheet. -/
example (m : Mode) (c : Mlx90640.Calibration ℝ) (h : Mlx90640.fromData m example640 = .ok c) :
    c.toCalib.gain = 6383 ∧ c.toCalib.kVdd = -3168 ∧ c.toCalib.vdd25 = -13056 ∧ c.toCalib.kTptat = 42.25 := by
  have w : ∀ k, k < 832 → eepromWord example640 (0x2400 + k) = BitVec.ofNat 16 (words640 k) := eepromWord_dump _
  have w48 : eepromWord example640 0x2430 = 0x18ef#16 := (w 48 (by decide)).trans (by decide)
  have w50 : eepromWord example640 0x2432 = 0x5952#16 := (w 50 (by decide)).trans (by decide)
  have w51 : eepromWord example640 0x2433 = 0x9d68#16 := (w 51 (by decide)).trans (by decide)
  obtain ⟨h1, _, _, h2, h3, h4, _⟩ := C25_scalars m example640 c h
  rw [h1, h2, h3, h4, w48, w50, w51, show signedAt 0x18ef#16 0 16 = 6383 by decide,
    show signedAt 0x5952#16 0 10 = 338 by decide]
  refine ⟨by norm_num, by decide, by decide, by norm_num⟩

theorem corr_real (basic : Nat) (ct : List Int) (ks : List ℝ) (n : Nat) :
    corr basic ct ks n = rangeCorrection basic ct ks n := by
  have hf : ∀ k, rangeFactor ct ks k = rangeStep ct ks k := by
    intro k
    show (((1 : Rat) : ℝ)) + ks.getD k (((0 : Rat) : ℝ)) * ((ct.getD (k + 1) 0 - ct.getD k 0 : Int) : ℝ) = _
    unfold rangeStep
    push_cast; rfl
  have up : ∀ k, corrUp basic ct ks k = ∏ j ∈ Finset.Ico basic (basic + k), rangeStep ct ks j := by
    intro k
    induction k with
    | zero => rw [Nat.add_zero, Finset.Ico_self, Finset.prod_empty]; show (((1 : Rat) : ℝ)) = 1; norm_num
    | succ k ih =>
      rw [← Nat.add_assoc, Finset.prod_Ico_succ_top (by omega), ← ih, ← hf, mul_comm]
      rfl
  have down : ∀ k, k ≤ basic → corrDown basic ct ks k = ∏ j ∈ Finset.Ico (basic - k) basic, (rangeStep ct ks j)⁻¹ := by
    intro k
    induction k with
    | zero => intro _; rw [Nat.sub_zero, Finset.Ico_self, Finset.prod_empty]; show (((1 : Rat) : ℝ)) = 1; norm_num
    | succ k ih =>
      intro hk
      rw [Finset.prod_eq_prod_Ico_succ_bot (by omega), show basic - (k + 1) + 1 = basic - k by omega, ← ih (by omega), ← hf]
      rfl
  unfold corr rangeCorrection
  by_cases h : basic ≤ n
  · rw [if_pos h, up, show basic + (n - basic) = n by omega, Finset.Ico_eq_empty_of_le h, Finset.prod_empty, mul_one]
  · rw [if_neg h, down _ (by omega), show basic - (basic - n) = n by omega, Finset.Ico_eq_empty_of_le (by omega : n ≤ basic),
      Finset.prod_empty, one_mul]

/-- **C29 (MLX90640).** The sensitivity correction of every temperature range: 1 for the basic range (range 1), and
otherwise the documented product along the ranges in between. An accepted image never fails to have one. -/
theorem C29_range_correction_640 (m : Mode) (data : List Byte) (c : Mlx90640.Calibration ℝ)
    (h : Mlx90640.fromData m data = .ok c) :
    let k := c.toCalib
    k.cam.basicRange = 1 ∧ k.alphaCorrection.length = 4 ∧
    ∀ n < 4, k.alphaCorrection[n]? = some (rangeCorrection k.cam.basicRange k.cornerTemps k.kSTo n) := by
  obtain ⟨_, _, rfl⟩ := accepted640 h
  refine ⟨rfl, by show (List.map _ _).length = 4; rw [List.length_map, List.length_range], fun n hn => ?_⟩
  show ((List.range 4).map (corr 1 (cornerTemps640 (eepromWord data)) (kSTo640 (eepromWord data))))[n]? = _
  rw [List.getElem?_map, List.getElem?_range hn, Option.map_some, corr_real]
  rfl

/-- What the correction is for the four ranges, as the datasheet writes it. -/
example (ct : List Int) (ks : List ℝ) (s : Nat → ℝ) (hs : ∀ k, rangeStep ct ks k = s k) :
    rangeCorrection 1 ct ks 0 = 1 / s 0 ∧ rangeCorrection 1 ct ks 1 = 1 ∧ rangeCorrection 1 ct ks 2 = s 1 ∧
      rangeCorrection 1 ct ks 3 = s 1 * s 2 := by
  unfold rangeCorrection
  simp only [hs]
  refine ⟨?_, ?_, ?_, ?_⟩ <;> simp [Finset.prod_Ico_succ_top]

theorem byParity_get {α : Type} (v : α × α × α × α) (i : Nat) (hi : i < 768) :
    (Mlx90640.chessboardIter v)[i]? = some (Ee640.byParity v.1 v.2.1 v.2.2.1 v.2.2.2 i) := by
  rw [chessboardIter_eq, List.getElem?_map, List.getElem?_range hi]; rfl

/-- **C30.** Temperature, voltage and sensitivity coefficients of every pixel. For a pixel that is not broken they are
the datasheet's formulas, provided the integer sums fit 16 bits. A broken pixel has `K_Ta` 0 and its sensitivity is
the unscaled sum of average, row and column. -/
theorem C30_pixel_coefficients (m : Mode) (data : List Byte) (c : Mlx90640.Calibration ℝ)
    (h : Mlx90640.fromData m data = .ok c) (s : Subpage) (i : Nat) (hi : i < 768) :
    let E := eepromWord data
    let k := c.toCalib
    (k.kV s)[i]? = some ((Ee640.kVRaw E i : ℝ) / 2 ^ bitsAt (E 0x2438) 8 4) ∧
    (Ee640.isFailed E i = false →
      (Fits16 (Ee640.kTaRc E i + Ee640.kTaRest E i) →
        (k.kTa s)[i]? = some ((Ee640.kTaRc E i + Ee640.kTaRest E i : ℝ) / 2 ^ Ee640.kTaScaleExp E)) ∧
      (Fits16 (Ee640.alphaAverage E + Ee640.alphaRow E i + Ee640.alphaCol E i) → Fits16 (Ee640.alphaRest E i) →
        (k.alpha s)[i]? = some ((Ee640.alphaAverage E + Ee640.alphaRow E i + Ee640.alphaCol E i +
          Ee640.alphaRest E i : ℝ) / 2 ^ Ee640.alphaScaleExp E))) ∧
    (Ee640.isFailed E i = true → (k.kTa s)[i]? = some 0 ∧
      (Fits16 (Ee640.alphaAverage E + Ee640.alphaRow E i + Ee640.alphaCol E i) →
        (k.alpha s)[i]? = some (Ee640.alphaAverage E + Ee640.alphaRow E i + Ee640.alphaCol E i : Int))) := by
  obtain ⟨_, _, rfl⟩ := accepted640 h
  generalize eepromWord data = W
  intro E k
  have hE : W = E := rfl
  clear_value E
  subst hE
  have hk : (k.kTa s)[i]? = some (pixel640 W i).kTa := px_get _ i hi
  have ha : (k.alpha s)[i]? = some (pixel640 W i).alpha := px_get _ i hi
  refine ⟨?_, fun hf => ⟨fun hs => ?_, fun hs1 hs2 => ?_⟩, fun hf => ⟨?_, fun hs => ?_⟩⟩
  · have := toCalib_kV (decode640 (F := ℝ) W) s
    rw [show k.kV s = _ from this, byParity_get _ _ hi]
    refine congrArg some ?_
    unfold Ee640.kVRaw
    have e := real_exp2_nat (bitsAt (W 0x2438) 8 4)
    rw [byParity_map (fun z : Int => (z : ℝ) / 2 ^ bitsAt (W 0x2438) 8 4), ← e]
    with_unfolding_all rfl
  · have hne : W (0x2440 + i) ≠ 0#16 := by simpa [Ee640.isFailed] using hf
    rw [hk]
    refine congrArg some ?_
    unfold pixel640 pixelOf
    rw [if_neg hne]
    simp only
    have : wrap16 (Ee640.kTaRc W i + signedAt (W (0x2440 + i)) 1 3 * 2 ^ bitsAt (W 0x2438) 0 4) =
        Ee640.kTaRc W i + Ee640.kTaRest W i := wrap16_fits hs
    rw [this]
    unfold kTaScale
    rw [real_exp2_nat]
    show ((Ee640.kTaRc W i + Ee640.kTaRest W i : Int) : ℝ) / 2 ^ Ee640.kTaScaleExp W = _
    push_cast; rfl
  · have hne : W (0x2440 + i) ≠ 0#16 := by simpa [Ee640.isFailed] using hf
    rw [ha]
    refine congrArg some ?_
    unfold pixel640 pixelOf
    rw [if_neg hne]
    simp only
    have h1 : alphaBulk W i = Ee640.alphaAverage W + Ee640.alphaRow W i + Ee640.alphaCol W i := wrap16_fits hs1
    have h2 : wrap16 (signedAt (W (0x2440 + i)) 4 6 * 2 ^ bitsAt (W 0x2420) 0 4) = Ee640.alphaRest W i := wrap16_fits hs2
    rw [h1, h2]
    unfold alphaScale
    rw [real_exp2_nat]
    show (((Ee640.alphaAverage W + Ee640.alphaRow W i + Ee640.alphaCol W i : Int) : ℝ) + (Ee640.alphaRest W i : ℝ)) /
      2 ^ Ee640.alphaScaleExp W = _
    push_cast; rfl
  · have h0 : W (0x2440 + i) = 0#16 := by simpa [Ee640.isFailed] using hf
    rw [hk]
    refine congrArg some ?_
    unfold pixel640 pixelOf
    rw [if_pos h0]
    show (((0 : Rat) : ℝ)) = 0
    norm_num
  · have h0 : W (0x2440 + i) = 0#16 := by simpa [Ee640.isFailed] using hf
    rw [ha]
    refine congrArg some ?_
    unfold pixel640 pixelOf
    rw [if_pos h0]
    have h1 : alphaBulk W i = Ee640.alphaAverage W + Ee640.alphaRow W i + Ee640.alphaCol W i := wrap16_fits hs
    show ((alphaBulk W i : Int) : ℝ) = _
    rw [h1]

/-- The sums of the worked example fit; for pixel (row 12, column 16) they give the documented K_Ta numerator 83 and
sensitivity numerator. -/
example : let E := fun a => BitVec.ofNat 16 (words640 (a - 0x2400))
    ∀ i < 768, Fits16 (Ee640.kTaRc E i + Ee640.kTaRest E i) ∧ Fits16 (Ee640.alphaRest E i) ∧
      Fits16 (Ee640.alphaAverage E + Ee640.alphaRow E i + Ee640.alphaCol E i) := by decide +kernel

/-- **C31.** The compensation added to the pixels: none in chess mode; in interleaved mode the datasheet's formula
`IL_CHESS_C3 * (2 * IL_PATTERN - 1) - IL_CHESS_C2 * Conversion_PATTERN` for every pixel. The compensation pixel gets
`IL_CHESS_C1`, on subpage 1 in interleaved mode only. -/
theorem C31_interleave_compensation (m : Mode) (data : List Byte) (c : Mlx90640.Calibration ℝ)
    (h : Mlx90640.fromData m data = .ok c) :
    let E := eepromWord data
    let c1 : ℝ := signedAt (E 0x2435) 0 6 / 2 ^ 4
    let c2 : ℝ := signedAt (E 0x2435) 6 5 / 2
    let c3 : ℝ := signedAt (E 0x2435) 11 5 / 2 ^ 3
    let k := c.toCalib
    (∀ i < 768, (k.apComp .chess)[i]? = some none ∧
      (k.apComp .interleave)[i]? =
        some (some (c3 * (2 * Ee640.ilPattern i - 1) - c2 * Ee640.conversionPattern i))) ∧
    (∀ s, k.apCompCp s .chess = none) ∧ k.apCompCp .zero .interleave = none ∧
    k.apCompCp .one .interleave = some c1 := by
  obtain ⟨_, _, rfl⟩ := accepted640 h
  generalize eepromWord data = W
  intro E c1 c2 c3 k
  have hE : W = E := rfl
  clear_value E
  subst hE
  have e1 : il1 W = c1 := by
    show ((signedAt (W 0x2435) 0 6 : Int) : ℝ) / ((16 : Rat) : ℝ) = _
    norm_num [c1]
  have e2 : il2 W = c2 := by
    show ((signedAt (W 0x2435) 6 5 : Int) : ℝ) / ((2 : Rat) : ℝ) = _
    norm_num [c2]
  have e3 : il3 W = c3 := by
    show ((signedAt (W 0x2435) 11 5 : Int) : ℝ) / ((8 : Rat) : ℝ) = _
    norm_num [c3]
  have hil : (decode640 (F := ℝ) W).ilPixels = ((-c3, c2 - c3, -(c2 + c3)), (c3, -(c2 - c3), c2 + c3)) := by
    rw [← e2, ← e3]; rfl
  have hap : ∀ a, k.apComp a = Mlx90640.accessPatternCompensation
      ((-c3, c2 - c3, -(c2 + c3)), (c3, -(c2 - c3), c2 + c3)) a := by
    intro a; rw [← hil]; exact toCalib_apComp _ a
  refine ⟨fun i hi => ⟨?_, ?_⟩, fun s => by cases s <;> rfl, rfl, ?_⟩
  · rw [hap]
    unfold Mlx90640.accessPatternCompensation
    exact List.getElem?_replicate_of_lt hi
  · rw [hap]
    unfold Mlx90640.accessPatternCompensation
    simp only
    rw [show Mlx90640.numPixels = 768 from rfl, List.getElem?_map, List.getElem?_range hi, Option.map_some]
    refine congrArg some ?_
    rw [show Mlx90640.width = 32 from rfl]
    have hcp : Ee640.ilPattern i = (i / 32 % 2 : Nat) := by unfold Ee640.ilPattern; omega
    have hcv : Ee640.conversionPattern i =
        (if i % 4 = 1 then -1 else if i % 4 = 3 then 1 else 0) * (1 - 2 * (i / 32 % 2 : Nat)) := by
      unfold Ee640.conversionPattern
      rw [hcp]
      congr 1
      split
      · omega
      · split <;> omega
    rw [hcp, hcv]
    have h4 : i % 4 < 4 := Nat.mod_lt _ (by decide)
    have h2 : i / 32 % 2 < 2 := Nat.mod_lt _ (by decide)
    generalize i % 4 = r at h4 ⊢
    generalize i / 32 % 2 = q at h2 ⊢
    match r, h4, q, h2 with
    | 0, _, 0, _ => norm_num
    | 0, _, 1, _ => norm_num
    | 1, _, 0, _ => norm_num; ring
    | 1, _, 1, _ => norm_num
    | 2, _, 0, _ => norm_num
    | 2, _, 1, _ => norm_num
    | 3, _, 0, _ => norm_num; ring
    | 3, _, 1, _ => norm_num; ring
  · show some (il1 W) = _
    rw [e1]

/-- In the worked example the three interleaving coefficients are 1.25, 3 and 0.125. -/
example : signedAt 0x0994#16 0 6 = 20 ∧ signedAt 0x0994#16 6 5 = 6 ∧ signedAt 0x0994#16 11 5 = 1 := by decide

/-- **C23 (MLX90640).** For every accepted EEPROM the V_DD reading 32767 makes every conversion of a checked build
panic. -/
theorem C23_overflow_640 (m : Mode) (data : List Byte) (cal : Mlx90640.Calibration F)
    (h : Mlx90640.fromData m data = .ok cal) (ram : RamData) (hv : ram.vddPixel = 32767) (em rc : F) (tR : Option F)
    (px : List Byte) (s : Subpage) (a : AccessPattern) (valid : List Bool) (dest : List F) :
    rawPixelsToTemperatures (ε := ε) .checked cal.toCalib em tR rc px ram s a valid dest = .panic ∧
    rawPixelsToIrData (ε := ε) .checked cal.toCalib em rc px ram s a valid dest = .panic := by
  obtain ⟨_, _, rfl⟩ := accepted640 h
  have hb := bitsAt_lt_two_pow (eepromWord data 0x2433) 0 8
  have h25 : (decode640 (F := F) (eepromWord data)).toCalib.vdd25 =
      ((bitsAt (eepromWord data 0x2433) 0 8 : Int) - 256) * 32 - 8192 := rfl
  have hd : deltaV (ε := ε) .checked (decode640 (F := F) (eepromWord data)).toCalib ram.vddPixel = .panic := by
    refine ((C23_delta_v_exact .checked _ ram.vddPixel).2 ?_).1
    rw [h25, hv]; omega
  have h' : CommonIrData.new (ε := ε) .checked rc em (decode640 (F := F) (eepromWord data)).toCalib ram = .panic := by
    unfold CommonIrData.new; rw [hd]; rfl
  constructor
  · unfold rawPixelsToTemperatures; rw [h']; rfl
  · unfold rawPixelsToIrData; rw [h']; rfl

/-- **C61.** `alpha_ptat` of an accepted image is the documented `EE[0x2410][15:12] / 2^2 + 8` exactly when that is a
whole number; otherwise it is too small by one, two or three quarters. -/
theorem C61_alpha_ptat_truncated (m : Mode) (data : List Byte) (c : Mlx90640.Calibration ℝ)
    (h : Mlx90640.fromData m data = .ok c) :
    let n := bitsAt (eepromWord data 0x2410) 12 4
    c.toCalib.alphaPtat = (n / 2 ^ 2 + 8 : ℝ) - (n % 4 : Nat) / 4 ∧
    (c.toCalib.alphaPtat = (n / 2 ^ 2 + 8 : ℝ) ↔ n % 4 = 0) := by
  intro n
  have h1 := (C25_scalars m data c h).2.2.2.2.2.2.2.1
  have h2 : (n : ℝ) = 4 * (n / 4 : Nat) + (n % 4 : Nat) := by exact_mod_cast (Nat.div_add_mod n 4).symm
  have h3 : c.toCalib.alphaPtat = (n / 2 ^ 2 + 8 : ℝ) - (n % 4 : Nat) / 4 := by
    rw [h1]
    show ((n / 4 : Nat) : ℝ) + 8 = _
    rw [h2]
    generalize ((n / 4 : Nat) : ℝ) = x
    generalize ((n % 4 : Nat) : ℝ) = y
    ring
  refine ⟨h3, ?_⟩
  rw [h3]
  constructor
  · intro h4
    have : ((n % 4 : Nat) : ℝ) = 0 := by linarith
    exact_mod_cast this
  · intro h4; rw [h4]; norm_num

/-- Both cases occur: the worked example's nibble is 4 (9 exactly), and 5 would be 9.25 in the datasheet. -/
example : bitsAt 0x4210#16 12 4 % 4 = 0 ∧ bitsAt 0x5210#16 12 4 % 4 ≠ 0 := by decide

end Mlx.Props
