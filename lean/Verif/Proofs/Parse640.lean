import Verif.Proofs.Eeprom640
import Mathlib.Tactic.Linarith
import Mathlib.Algebra.Order.Ring.Int
/-
The whole of `Mlx90640Calibration::from_data` as a function of the EEPROM words.
-/
set_option linter.unusedSectionVars false
set_option autoImplicit false
namespace Mlx.Proofs
open Mlx Mlx.Spec F32Ops
variable {F ε : Type} [F32Ops F] {data : List Byte}

theorem wrap16_fits {x : Int} (h : Fits16 x) : wrap16 x = x := by unfold wrap16; exact bmod_of_fits h

theorem res_bind_congr {α β : Type} {x : Res ε α} {f g : α → Res ε β} (h : ∀ r, f r = g r) : x >>= f = x >>= g := by
  rw [funext h]

theorem parse_eq (m : Mode) (h : 128 ≤ data.length) :
    Mlx90640.parse (F := F) m data =
      (onlyIf (∀ i < 768, m = .wrapping ∨ Ee640.BulkSumsFit (eepromWord data) i) () >>= fun _ =>
        Mlx90640.pixelLoop m (bitsAt (eepromWord data 0x2410) 0 4) (bitsAt (eepromWord data 0x2420) 0 4)
          (bitsAt (eepromWord data 0x2438) 0 4) (alphaScale (eepromWord data)) (kTaScale (eepromWord data))
          (items640 (eepromWord data)) (data.drop 128) >>= fun r =>
        Res.ok (decode640With (eepromWord data) r.1, r.2)) := by
  have hp : ∀ k, k ≤ 64 → pos k ≤ data.length := by
    intro k hk; have := pos_add 0 k; have h0 : pos 0 = 0 := by unfold pos; rfl
    rw [Nat.zero_add] at this; omega
  have h16 : 2 * 16 = pos 16 := by unfold pos; rfl
  have h128 : data.drop 128 = data.drop (pos 64) := by unfold pos; rfl
  unfold Mlx90640.parse
  rw [Parser.bind_apply, advance_zero _ (by omega), Res.ok_bind, Parser.bind_apply]
  simp only
  rw [h16, bulk_at m 16 (hp _ (by decide))]
  by_cases hb1 : (∀ i < 768, m = .wrapping ∨
          (Fits16 (blockAvg data 16 + wrap16 (blockRow data 16 i)) ∧
           Fits16 (blockAvg data 16 + wrap16 (blockRow data 16 i) + wrap16 (blockCol data 16 i))))
  swap
  · rw [onlyIf_neg hb1, onlyIf_neg]
    · rfl
    · intro hc
      apply hb1
      intro i hi
      obtain ⟨e1, e2, e3⟩ := block_offset (data := data) i
      rw [e1, e2, e3]
      exact (hc i hi).imp id fun hc => ⟨hc.1, hc.2.1⟩
  rw [onlyIf_pos hb1, Res.ok_bind]
  simp only
  rw [Parser.bind_apply, bulk_at m 32 (hp _ (by decide))]
  by_cases hb2 : (∀ i < 768, m = .wrapping ∨
          (Fits16 (blockAvg data 32 + wrap16 (blockRow data 32 i)) ∧
           Fits16 (blockAvg data 32 + wrap16 (blockRow data 32 i) + wrap16 (blockCol data 32 i))))
  swap
  · rw [onlyIf_neg hb2, onlyIf_neg]
    · rfl
    · intro hc
      apply hb2
      intro i hi
      obtain ⟨e1, e2, e3⟩ := block_alpha (data := data) i
      rw [e1, e2, e3]
      exact (hc i hi).imp id fun hc => ⟨hc.2.2.1, hc.2.2.2⟩
  rw [onlyIf_pos hb2, Res.ok_bind, onlyIf_pos, Res.ok_bind]
  swap
  · intro i hi
    obtain ⟨e1, e2, e3⟩ := block_offset (data := data) i
    obtain ⟨f1, f2, f3⟩ := block_alpha (data := data) i
    have a1 := hb1 i hi
    have a2 := hb2 i hi
    rw [e1, e2, e3] at a1
    rw [f1, f2, f3] at a2
    rcases a1 with a1 | a1
    · exact Or.inl a1
    · rcases a2 with a2 | a2
      · exact Or.inl a2
      · exact Or.inr ⟨a1.1, a1.2, a2.1, a2.2⟩
  simp only
  obtain ⟨vb, hvb, hvb'⟩ := getU8_lo (ε := LibErr) (data := data) 51 (hp _ (by decide))
  have c48 := getI16_word (ε := LibErr) (data := data) 48 (hp _ (by decide))
  have c49 := getI16_word (ε := LibErr) (data := data) 49 (hp _ (by decide))
  have c50 := word610_at (ε := LibErr) (data := data) 50 (hp _ (by decide))
  have c51 := getI8_hi (ε := LibErr) (data := data) 51 (hp _ (by decide))
  have c52 := wordToI4s_at (ε := LibErr) (data := data) 52 (hp _ (by decide))
  have c53 := getU16_word (ε := LibErr) (data := data) 53 (hp _ (by decide))
  have c54 := getI8_hi (ε := LibErr) (data := data) 54 (hp _ (by decide))
  have c54' := getI8_lo (ε := LibErr) (data := data) 54 (hp _ (by decide))
  have c55 := getI8_hi (ε := LibErr) (data := data) 55 (hp _ (by decide))
  have c55' := getI8_lo (ε := LibErr) (data := data) 55 (hp _ (by decide))
  have c56 := wordToU4s_at (ε := LibErr) (data := data) 56 (hp _ (by decide))
  have c57 := word610_at (ε := LibErr) (data := data) 57 (hp _ (by decide))
  have c58 := word610_at (ε := LibErr) (data := data) 58 (hp _ (by decide))
  have c59 := getI8_hi (ε := LibErr) (data := data) 59 (hp _ (by decide))
  have c59' := getI8_lo (ε := LibErr) (data := data) 59 (hp _ (by decide))
  have c60 := getI8_hi (ε := LibErr) (data := data) 60 (hp _ (by decide))
  have c60' := getI8_lo (ε := LibErr) (data := data) 60 (hp _ (by decide))
  have c61 := getI8_hi (ε := LibErr) (data := data) 61 (hp _ (by decide))
  have c61' := getI8_lo (ε := LibErr) (data := data) 61 (hp _ (by decide))
  have c62 := getI8_hi (ε := LibErr) (data := data) 62 (hp _ (by decide))
  have c62' := getI8_lo (ε := LibErr) (data := data) 62 (hp _ (by decide))
  have c63 := wordToU4s_at (ε := LibErr) (data := data) 63 (hp _ (by decide))
  simp only [Nat.reduceAdd] at c48 c49 c50 c51 c52 c53 c54 c54' c55 c55' c56 c57 c58 c59 c59' c60 c60' c61 c61' c62 c62' c63 hvb
  simp only [Nat.reduceAdd]
  rw [Parser.bind_apply, c48, Res.ok_bind, Parser.bind_apply, c49, Res.ok_bind, Parser.bind_apply, c50, Res.ok_bind]
  simp only
  rw [Parser.bind_apply, signedAt_lo10, lift_ok, Res.ok_bind, Parser.bind_apply, c51, Res.ok_bind, Parser.bind_apply,
    hvb, Res.ok_bind, Parser.bind_apply, c52, Res.ok_bind, Parser.bind_apply]
  simp only
  have hap : Mlx90640.accessPatternCorrections (F := F) (ε := LibErr) m (data.drop (pos 53)) =
      .ok ((il1 (eepromWord data), ((neg (il3 (eepromWord data)), il2 (eepromWord data) -. il3 (eepromWord data),
        neg (il2 (eepromWord data) +. il3 (eepromWord data))),
        (il3 (eepromWord data), neg (il2 (eepromWord data) -. il3 (eepromWord data)),
          il2 (eepromWord data) +. il3 (eepromWord data)))), data.drop (pos 54)) := by
    unfold Mlx90640.accessPatternCorrections
    rw [Parser.bind_apply, c53, Res.ok_bind, Parser.bind_apply]
    simp only
    rw [ap1, lift_ok, Res.ok_bind, Parser.bind_apply, ap2, lift_ok, Res.ok_bind, Parser.bind_apply, ap3, lift_ok,
      Res.ok_bind, ← ew_lit (a := 0x2435) (k := 53) rfl]
    rfl
  rw [hap, Res.ok_bind]
  simp only
  have hkta : Mlx90640.generateKTaPixels (ε := LibErr) (data.drop (pos 54)) =
      .ok ((List.range 768).map (Ee640.kTaRc (eepromWord data)), data.drop (pos 56)) := by
    unfold Mlx90640.generateKTaPixels
    rw [Parser.bind_apply, c54, Res.ok_bind, Parser.bind_apply, c54', Res.ok_bind, Parser.bind_apply, c55, Res.ok_bind,
      Parser.bind_apply, c55', Res.ok_bind, Parser.pure_apply, repeatChessboard_eq,
      ← ew_lit (a := 0x2436) (k := 54) rfl, ← ew_lit (a := 0x2437) (k := 55) rfl]
    have e : Ee640.kTaRc (eepromWord data) = Ee640.byParity (signedAt (eepromWord data 0x2436) 8 8)
      (signedAt (eepromWord data 0x2436) 0 8) (signedAt (eepromWord data 0x2437) 8 8)
      (signedAt (eepromWord data 0x2437) 0 8) := by funext i; unfold Ee640.kTaRc; rfl
    rw [e]
  rw [Parser.bind_apply, hkta, Res.ok_bind, Parser.bind_apply, c56, Res.ok_bind, Parser.bind_apply]
  simp only
  rw [bitsAt_top2, resolution_fromRaw _ (bitsAt_lt_two_pow _ 12 2), lift_ok, Res.ok_bind, Parser.bind_apply, c57, Res.ok_bind]
  simp only
  rw [Parser.bind_apply]
  have hcp : Mlx90640.u16OfBytes (ε := LibErr) [data.getD (pos 57) 0#8 &&& 0x03#8, data.getD (pos 57 + 1) 0#8] =
      .ok (be16 (data.getD (pos 57) 0#8 &&& 0x03#8) (data.getD (pos 57 + 1) 0#8)) := rfl
  rw [hcp, lift_ok, Res.ok_bind, Parser.bind_apply, c58, Res.ok_bind]
  simp only
  rw [Parser.bind_apply, signedAt_lo10, lift_ok, Res.ok_bind, Parser.bind_apply, c59, Res.ok_bind, Parser.bind_apply, c59',
    Res.ok_bind, Parser.bind_apply, c60, Res.ok_bind, Parser.bind_apply, c60', Res.ok_bind, Parser.bind_apply]
  have htr : Mlx90640.temperatureRangeData (F := F) (ε := LibErr) (data.drop (pos 61)) =
      .ok ((cornerTemps640 (eepromWord data), kSTo640 (eepromWord data)), data.drop (pos 64)) := by
    unfold Mlx90640.temperatureRangeData
    rw [Parser.bind_apply, c61, Res.ok_bind, Parser.bind_apply, c61', Res.ok_bind, Parser.bind_apply, c62, Res.ok_bind,
      Parser.bind_apply, c62', Res.ok_bind, Parser.bind_apply, c63, Res.ok_bind, Parser.pure_apply]
    simp only
    rw [bitsAt_top2, ← ew_lit (a := 0x243D) (k := 61) rfl, ← ew_lit (a := 0x243E) (k := 62) rfl,
      ← ew_lit (a := 0x243F) (k := 63) rfl]
    refine congrArg Res.ok (Prod.ext (Prod.ext ?_ ?_) ?_)
    · unfold cornerTemps640 Ee640.ct4 Ee640.ct3 Ee640.ctStep
      simp only
    · unfold kSTo640
      simp only [List.map_cons, List.map_nil]
    · simp only
  simp only
  rw [htr, Res.ok_bind]
  simp only
  have hac : alphaCorrectionCoefficients (F := F) (ε := LibErr) m Mlx90640.numCornerTemps Mlx90640.cam.basicRange
      (cornerTemps640 (eepromWord data)) (kSTo640 (eepromWord data)) =
      .ok ((List.range 4).map (corr 1 (cornerTemps640 (eepromWord data)) (kSTo640 (eepromWord data)))) := by
    refine alphaCorrection_ok m 4 1 _ _ rfl (by show 1 < 4; decide) rfl ?_
    intro k hk
    have hk : k < 3 := by
      have : (cornerTemps640 (eepromWord data)).length = 4 := rfl
      omega
    have b1 := bitsAt_lt_two_pow (eepromWord data 0x243F) 12 2
    have b2 := bitsAt_lt_two_pow (eepromWord data 0x243F) 4 4
    have b3 := bitsAt_lt_two_pow (eepromWord data 0x243F) 8 4
    have n1 : (0 : Int) ≤ Ee640.ctStep (eepromWord data) ∧ Ee640.ctStep (eepromWord data) ≤ 30 := by
      unfold Ee640.ctStep; omega
    have n2 : ∀ x : Nat, x < 2 ^ 4 → (0 : Int) ≤ x * Ee640.ctStep (eepromWord data) ∧
        (x : Int) * Ee640.ctStep (eepromWord data) ≤ 450 := by
      intro x hx
      obtain ⟨l, u⟩ := n1
      constructor
      · exact mul_nonneg (by omega) l
      · have hx : (x : Int) ≤ 15 := by omega
        nlinarith
    have m1 := n2 _ b2
    have m2 := n2 _ b3
    match k, hk with
    | 0, _ => show Fits16 (0 - -40); decide
    | 1, _ =>
      show Fits16 (Ee640.ct3 (eepromWord data) - 0)
      unfold Fits16 Ee640.ct3; omega
    | 2, _ =>
      show Fits16 (Ee640.ct4 (eepromWord data) - Ee640.ct3 (eepromWord data))
      unfold Fits16 Ee640.ct4; omega
  rw [Parser.bind_apply, hac, lift_ok, Res.ok_bind, Parser.bind_apply, h128]
  have hit : (((List.map (fun i => wrap16 (blockAvg data 16 + blockRow data 16 i + blockCol data 16 i))
                      (List.range 768)).zip
                  (List.map (fun a : Int => (ofInt a : F))
                    (List.map (fun i => wrap16 (blockAvg data 32 + blockRow data 32 i + blockCol data 32 i))
                      (List.range 768)))).zip
              (List.map (Ee640.kTaRc (eepromWord data)) (List.range 768))) = items640 (eepromWord data) := by
    rw [List.map_map, List.zip_map', List.zip_map']
    unfold items640
    refine List.map_congr_left fun i _ => ?_
    obtain ⟨e1, e2, e3⟩ := block_offset (data := data) i
    obtain ⟨f1, f2, f3⟩ := block_alpha (data := data) i
    rw [Prod.mk.injEq, Prod.mk.injEq]
    refine ⟨⟨?_, ?_⟩, rfl⟩
    · rw [e1, e2, e3]; rfl
    · show ofInt (wrap16 _) = ofInt _
      rw [f1, f2, f3]; rfl
  rw [hit]
  rw [be16_lo10 57, hvb', shl16_eq]
  rw [← ew_lit (a := 0x2410) (k := 16) rfl, ← ew_lit (a := 0x2420) (k := 32) rfl,
    ← ew_lit (a := 0x2430) (k := 48) rfl, ← ew_lit (a := 0x2431) (k := 49) rfl,
    ← ew_lit (a := 0x2432) (k := 50) rfl, ← ew_lit (a := 0x2433) (k := 51) rfl,
    ← ew_lit (a := 0x2434) (k := 52) rfl, ← ew_lit (a := 0x2438) (k := 56) rfl, ← ew_lit (a := 0x2439) (k := 57) rfl,
    ← ew_lit (a := 0x243A) (k := 58) rfl, ← ew_lit (a := 0x243B) (k := 59) rfl,
    ← ew_lit (a := 0x243C) (k := 60) rfl]
  have e1 : alphaScale (F := F) (eepromWord data) = exp2 (ofInt (bitsAt (eepromWord data 0x2420) 12 4 + 30 : Nat)) := rfl
  have e2 : kTaScale (F := F) (eepromWord data) = exp2 (ofInt (bitsAt (eepromWord data 0x2438) 4 4 + 8 : Nat)) := rfl
  rw [← e1, ← e2]
  simp only
  refine res_bind_congr fun r => ?_
  rw [Parser.pure_apply]
  unfold decode640With kVScale alphaCp640
  with_reducible rfl

/-- Decoding a full dump: panics exactly when a checked `i16` sum does not fit. -/
theorem fromData_eq (m : Mode) (h : 1664 ≤ data.length) :
    Mlx90640.fromData (F := F) m data =
      onlyIf (∀ i < 768, m = .wrapping ∨ Ee640.SumsFit (eepromWord data) i) (decode640 (eepromWord data)) := by
  have hlen : (items640 (F := F) (eepromWord data)).length = 768 := by
    unfold items640; rw [List.length_map, List.length_range]
  have h832 : pos (64 + 768) ≤ data.length := by unfold pos; exact h
  have h128 : data.drop 128 = data.drop (pos 64) := by unfold pos; rfl
  have hget : ∀ i, i < 768 → (items640 (F := F) (eepromWord data))[i]? =
      some ((offsetBulk (eepromWord data) i, ofInt (alphaBulk (eepromWord data) i)), Ee640.kTaRc (eepromWord data) i) := by
    intro i hi
    unfold items640
    rw [List.getElem?_map, List.getElem?_range hi]; rfl
  have hpx : ∀ i, ew data (64 + i) = eepromWord data (0x2440 + i) := fun i => (ew_lit (by omega)).symm
  unfold Mlx90640.fromData
  have hl : ¬ data.length < Mlx90640.eepromEnd - Mlx90640.eepromBase := by
    show ¬ data.length < 831; omega
  rw [if_neg hl, parse_eq m (by omega), h128, pixelLoop_at m _ _ _ _ _ _ 64 (by rw [hlen]; exact h832)]
  by_cases hb : ∀ i < 768, m = .wrapping ∨ Ee640.BulkSumsFit (eepromWord data) i
  swap
  · rw [onlyIf_neg hb, Res.panic_bind, onlyIf_neg]
    intro hc
    exact hb fun i hi => (hc i hi).imp id fun hc => ⟨hc.1, hc.2.1, hc.2.2.1, hc.2.2.2.1⟩
  rw [onlyIf_pos hb, Res.ok_bind]
  have key : ∀ i < 768, m ≠ .wrapping → Ee640.BulkSumsFit (eepromWord data) i →
      (PixelFits m (bitsAt (eepromWord data 0x2410) 0 4) (bitsAt (eepromWord data 0x2438) 0 4)
        ((offsetBulk (eepromWord data) i, (ofInt (alphaBulk (eepromWord data) i) : F)), Ee640.kTaRc (eepromWord data) i)
        (eepromWord data (0x2440 + i)) ↔ Ee640.SumsFit (eepromWord data) i) := by
    intro i _ hm ⟨b1, b2, b3, b4⟩
    have ho : offsetBulk (eepromWord data) i = Ee640.offsetAverage (eepromWord data) +
        wrap16 (Ee640.offsetRow (eepromWord data) i) + wrap16 (Ee640.offsetCol (eepromWord data) i) := by
      unfold offsetBulk
      rw [← wrap16_fits b2, wrap16_add_wrap16', ← wrap16_add_wrap16 (Ee640.offsetAverage _ + wrap16 _),
        wrap16_add_wrap16', wrap16_add_wrap16]
    unfold PixelFits
    constructor
    · intro hp
      refine ⟨b1, b2, b3, b4, fun hf => ?_⟩
      have := (hp (by simpa [Ee640.isFailed] using hf)).resolve_left hm
      rwa [ho] at this
    · intro ⟨_, _, _, _, hp⟩ hne
      refine Or.inr ?_
      have := hp (by simpa [Ee640.isFailed] using hne)
      rwa [ho]
  by_cases hp : ∀ j it, (items640 (F := F) (eepromWord data))[j]? = some it →
      PixelFits m (bitsAt (eepromWord data 0x2410) 0 4) (bitsAt (eepromWord data 0x2438) 0 4) it (ew data (64 + j))
  · rw [onlyIf_pos hp, Res.ok_bind]
    simp only
    rw [onlyIf_pos]
    · refine congrArg Res.ok ?_
      unfold decode640 pixels640
      refine congrArg _ ?_
      apply List.ext_getElem?
      intro i
      rw [List.getElem?_mapIdx, List.getElem?_map]
      by_cases hi : i < 768
      · rw [hget i hi, List.getElem?_range hi, hpx]; rfl
      · rw [List.getElem?_eq_none (by rw [hlen]; omega), List.getElem?_eq_none (by rw [List.length_range]; omega)]
        rfl
    · intro i hi
      by_cases hm : m = .wrapping
      · exact Or.inl hm
      · refine Or.inr ((key i hi hm ((hb i hi).resolve_left hm)).1 ?_)
        rw [← hpx]; exact hp i _ (hget i hi)
  · rw [onlyIf_neg hp, Res.panic_bind]
    simp only
    rw [onlyIf_neg]
    intro hc
    apply hp
    intro j it hj
    have hj' : j < 768 := by
      have := List.getElem?_eq_some_iff.1 hj
      obtain ⟨h1, _⟩ := this
      rwa [hlen] at h1
    rw [hget j hj'] at hj
    have := Option.some.inj hj
    subst this
    by_cases hm : m = .wrapping
    · intro _; exact Or.inl hm
    · rw [hpx]
      exact (key j hj' hm ((hb j hj').resolve_left hm)).2 ((hc j hj').resolve_left hm)

/-- A dump that passes the length check but is not complete. -/
theorem fromData_short (m : Mode) (h1 : 831 ≤ data.length) (h2 : data.length < 1664) :
    Mlx90640.fromData (F := F) m data = .panic := by
  have hlen : (items640 (F := F) (eepromWord data)).length = 768 := by
    unfold items640; rw [List.length_map, List.length_range]
  unfold Mlx90640.fromData
  have hl : ¬ data.length < Mlx90640.eepromEnd - Mlx90640.eepromBase := by
    show ¬ data.length < 831; omega
  rw [if_neg hl, parse_eq m (by omega), pixelLoop_short m _ _ _ _ _ _ _ (by rw [hlen, List.length_drop]; omega)]
  by_cases hb : ∀ i < 768, m = .wrapping ∨ Ee640.BulkSumsFit (eepromWord data) i
  · rw [onlyIf_pos hb]; rfl
  · rw [onlyIf_neg hb]; rfl

end Mlx.Proofs
