import Verif.Proofs.Bulk640
import Verif.Proofs.Range
/-
`Mlx90640Calibration::from_data` as a function of EEPROM words.
-/
set_option linter.unusedSectionVars false
set_option autoImplicit false
namespace Mlx.Proofs
open Mlx Mlx.Spec F32Ops
variable {F ε : Type} [F32Ops F] {data : List Byte}

/-! ### One pixel -/

theorem signedAt_pixOffset (a b : Byte) : sar (a &&& 0xFC#8).toInt 2 = signedAt (be16 a b) 10 6 := by
  have : ∀ a : Byte, sar (a &&& 0xFC#8).toInt 2 = sar a.toInt 2 := by decide +kernel
  rw [this, signedAt_hi6]

theorem signedAt_pixAlpha (a b : Byte) :
    sar (shl16 (be16 (a &&& 0x03#8) b).toInt 6) 10 = signedAt (be16 a b) 4 6 := by
  rw [BitVec.toInt_eq_toNat_bmod, be16_toNat, byte_lo2]
  unfold signedAt shl16 sar
  rw [be16_toNat]
  have := a.isLt; have := b.isLt
  simp only [Int.bmod_def, Nat.reducePow, Int.reducePow]
  omega

theorem signedAt_pixKTa (a b : Byte) :
    sar (shl8 (b &&& 0x0E#8).toInt 4) 5 = signedAt (be16 a b) 1 3 := by
  have : ∀ b : Byte, sar (shl8 (b &&& 0x0E#8).toInt 4) 5 = Int.bmod (b.toNat / 2 : Nat) 8 := by decide +kernel
  rw [this]
  unfold signedAt
  rw [be16_toNat]
  have := a.isLt; have := b.isLt
  simp only [Int.bmod_def, Nat.reducePow]
  omega

theorem be16_zero (a b : Byte) : (a = 0#8 ∧ b = 0#8) ↔ be16 a b = 0#16 := by
  constructor
  · rintro ⟨rfl, rfl⟩; rfl
  · intro h
    have := congrArg BitVec.toNat h
    rw [be16_toNat] at this
    have h0 : (0#16).toNat = 0 := rfl
    rw [h0] at this
    constructor <;> (apply BitVec.eq_of_toNat_eq; simp; omega)

theorem bit0_be16 (a b : Byte) : isBitSet8 b 0 = (be16 a b).getLsbD 0 := by
  have : ∀ b : Byte, isBitSet8 b 0 = b.getLsbD 0 := by decide +kernel
  rw [this]
  unfold be16
  rw [BitVec.getLsbD_append]
  simp

/-- What the per-pixel loop makes of the word `w` of a pixel. -/
def pixelOf (offsetRemScale alphaRemScale kTaScale2 : Nat) (alphaScale kTaScale1 : F)
    (it : (Int × F) × Int) (w : Word) : Mlx90640.PixelOut F :=
  if w = 0#16 then
    { offset := it.1.1, alpha := it.1.2, kTa := lit 0, failed := true, outlier := false }
  else
    { offset := wrap16 (it.1.1 + signedAt w 10 6 * 2 ^ offsetRemScale)
      alpha := (it.1.2 +. ofInt (wrap16 (signedAt w 4 6 * 2 ^ alphaRemScale))) /. alphaScale
      kTa := ofInt (wrap16 (it.2 + signedAt w 1 3 * 2 ^ kTaScale2)) /. kTaScale1
      failed := false
      outlier := w.getLsbD 0 }

/-- The sums of a pixel that must fit. -/
def PixelFits (m : Mode) (offsetRemScale kTaScale2 : Nat) (it : (Int × F) × Int) (w : Word) : Prop :=
  w ≠ 0#16 → m = .wrapping ∨
    (Fits16 (it.1.1 + wrap16 (signedAt w 10 6 * 2 ^ offsetRemScale)) ∧
     Fits16 (it.2 + wrap16 (signedAt w 1 3 * 2 ^ kTaScale2)))

theorem pixelStep_eq (m : Mode) (ors ars ks2 : Nat) (asc ks1 : F) (it : (Int × F) × Int) (a b : Byte) :
    Mlx90640.pixelStep (ε := ε) m ors ars ks2 asc ks1 it.1.1 it.1.2 it.2 a b =
      onlyIf (PixelFits m ors ks2 it (be16 a b)) (pixelOf ors ars ks2 asc ks1 it (be16 a b)) := by
  unfold Mlx90640.pixelStep pixelOf PixelFits
  by_cases h : be16 a b = 0#16
  · rw [if_pos ((be16_zero a b).2 h), if_pos h, onlyIf_pos (fun h' => absurd h h')]
  · rw [if_neg (fun h' => h ((be16_zero a b).1 h')), if_neg h]
    simp only
    rw [signedAt_pixOffset a b, signedAt_pixAlpha, signedAt_pixKTa a b, shl16_eq, shl16_eq, shl16_eq,
      arith16_eq, arith16_eq, bit0_be16 a b]
    rw [wrap16_add_wrap16', wrap16_add_wrap16']
    by_cases h1 : m = .wrapping ∨ Fits16 (it.1.1 + wrap16 (signedAt (be16 a b) 10 6 * 2 ^ ors))
    · rw [onlyIf_pos h1, Res.ok_bind]
      by_cases h2 : m = .wrapping ∨ Fits16 (it.2 + wrap16 (signedAt (be16 a b) 1 3 * 2 ^ ks2))
      · rw [onlyIf_pos h2, Res.ok_bind, onlyIf_pos]
        intro _
        rcases h1 with h1 | h1
        · exact Or.inl h1
        · exact h2.imp id fun h2 => ⟨h1, h2⟩
      · rw [onlyIf_neg h2, Res.panic_bind, onlyIf_neg]
        exact fun h' => h2 ((h' h).imp id fun h => h.2)
    · rw [onlyIf_neg h1, Res.panic_bind, onlyIf_neg]
      exact fun h' => h1 ((h' h).imp id fun h => h.1)

theorem pixelLoop_at (m : Mode) (ors ars ks2 : Nat) (asc ks1 : F) (items : List ((Int × F) × Int)) (A : Nat)
    (hlen : pos (A + items.length) ≤ data.length) :
    Mlx90640.pixelLoop (ε := ε) m ors ars ks2 asc ks1 items (data.drop (pos A)) =
      onlyIf (∀ j it, items[j]? = some it → PixelFits m ors ks2 it (ew data (A + j)))
        (items.mapIdx fun j it => pixelOf ors ars ks2 asc ks1 it (ew data (A + j)),
          data.drop (pos (A + items.length))) := by
  induction items generalizing A with
  | nil =>
    rw [onlyIf_pos (by intro j it h; simp at h)]
    rfl
  | cons it items ih =>
    have h1 := pos_add A (it :: items).length
    rw [List.length_cons] at h1 hlen
    unfold Mlx90640.pixelLoop
    rw [Parser.bind_apply, getU8_at _ (by omega), Res.ok_bind, Parser.bind_apply, getU8_at _ (by omega),
      Res.ok_bind, Parser.bind_apply, pixelStep_eq, lift_onlyIf, ← ew_pos]
    have hih := ih (A + 1) (by rw [show A + 1 + items.length = A + (items.length + 1) by omega]; exact hlen)
    have hp : pos A + 1 + 1 = pos (A + 1) := pos_succ A
    rw [hp]
    refine (onlyIf_bind (Q := ∀ j it, items[j]? = some it → PixelFits m ors ks2 it (ew data (A + 1 + j)))
      (b := (pixelOf ors ars ks2 asc ks1 it (ew data A) ::
        items.mapIdx fun j it => pixelOf ors ars ks2 asc ks1 it (ew data (A + 1 + j)),
        data.drop (pos (A + 1 + items.length)))) fun _ => ?_).trans ?_
    · simp only
      rw [Parser.bind_apply, hih]
      exact onlyIf_map (fun r : List (Mlx90640.PixelOut F) × List Byte => (_ :: r.1, r.2))
    · refine onlyIf_congr ?_ fun _ => ?_
      · constructor
        · rintro ⟨h0, h⟩ j y hj
          cases j with
          | zero => simp only [List.getElem?_cons_zero, Option.some.injEq] at hj; subst hj; exact h0
          | succ j => have := h j y (by simpa using hj); rwa [show A + (j + 1) = A + 1 + j by omega]
        · intro h
          refine ⟨h 0 it rfl, fun j y hj => ?_⟩
          have := h (j + 1) y (by simpa using hj)
          rwa [show A + (j + 1) = A + 1 + j by omega] at this
      · rw [List.mapIdx_cons, List.length_cons, show A + 1 + items.length = A + (items.length + 1) by omega]
        have : (fun j (y : (Int × F) × Int) => pixelOf ors ars ks2 asc ks1 y (ew data (A + 1 + j))) =
            fun j => (fun j (y : (Int × F) × Int) => pixelOf ors ars ks2 asc ks1 y (ew data (A + j))) (j + 1) := by
          funext j y
          show pixelOf ors ars ks2 asc ks1 y (ew data (A + 1 + j)) = pixelOf ors ars ks2 asc ks1 y (ew data (A + (j + 1)))
          rw [show A + (j + 1) = A + 1 + j by omega]
        rw [this]; rfl

theorem pixelLoop_short (m : Mode) (ors ars ks2 : Nat) (asc ks1 : F) (items : List ((Int × F) × Int)) (s : List Byte)
    (h : s.length < 2 * items.length) :
    Mlx90640.pixelLoop (ε := ε) m ors ars ks2 asc ks1 items s = .panic := by
  induction items generalizing s with
  | nil => simp at h
  | cons it items ih =>
    unfold Mlx90640.pixelLoop
    match s, h with
    | [], _ => rfl
    | [a], _ => rfl
    | a :: b :: s, h =>
      have hs := ih s (by simp only [List.length_cons] at h; omega)
      have e1 : getU8 (ε := ε) (a :: b :: s) = .ok (a, b :: s) := rfl
      have e2 : getU8 (ε := ε) (b :: s) = .ok (b, s) := rfl
      rw [Parser.bind_apply, e1, Res.ok_bind, Parser.bind_apply, e2, Res.ok_bind]
      rw [Parser.bind_apply, pixelStep_eq, lift_onlyIf]
      by_cases hp : PixelFits m ors ks2 it (be16 a b)
      · rw [onlyIf_pos hp, Res.ok_bind, Parser.bind_apply, hs]; rfl
      · rw [onlyIf_neg hp]; rfl

/-! ### Fields of the access pattern word -/

theorem toNat_and_low (w : Word) (mask : Word) (n : Nat) (h : mask.toNat = 2 ^ n - 1) :
    (w &&& mask).toNat = w.toNat % 2 ^ n := by
  rw [BitVec.toNat_and, h, Nat.and_two_pow_sub_one_eq_mod]

theorem toNat_and_shift (w : Word) (mask : Word) (s n : Nat) (h : mask.toNat >>> s = 2 ^ n - 1) :
    ((w &&& mask) >>> s).toNat = w.toNat / 2 ^ s % 2 ^ n := by
  rw [BitVec.toNat_ushiftRight, BitVec.toNat_and, Nat.shiftRight_and_distrib, h, Nat.and_two_pow_sub_one_eq_mod,
    Nat.shiftRight_eq_div_pow]

theorem i16FromBits_toBe (m : Mode) (w : Word) (n : Nat) (h1 : 1 ≤ n) (h2 : n ≤ 16) :
    i16FromBits (ε := ε) m (toBe w) n = .ok (Int.bmod w.toNat (2 ^ n)) := by
  have : toBe w = [hiByte w, loByte w] := rfl
  rw [this, i16FromBits_two _ _ _ _ _ h1 h2]
  have e : be16 (hiByte w) (loByte w) = w := be16_toBe w
  rw [e]

theorem bmod_mod_pow (x n : Nat) : Int.bmod ((x % 2 ^ n : Nat) : Int) (2 ^ n) = Int.bmod (x : Int) (2 ^ n) := by
  rw [Int.natCast_mod]
  exact Int.emod_bmod _ _

theorem ap1 (m : Mode) (w : Word) : i16FromBits (ε := ε) m (toBe (w &&& 0x003F#16)) 6 = .ok (signedAt w 0 6) := by
  rw [i16FromBits_toBe _ _ _ (by decide) (by decide), toNat_and_low w _ 6 (by decide), bmod_mod_pow]
  unfold signedAt
  rw [Nat.pow_zero, Nat.div_one]

theorem ap2 (m : Mode) (w : Word) :
    i16FromBits (ε := ε) m (toBe ((w &&& 0x07C0#16) >>> 6)) 5 = .ok (signedAt w 6 5) := by
  rw [i16FromBits_toBe _ _ _ (by decide) (by decide), toNat_and_shift w _ 6 5 (by decide), bmod_mod_pow]
  rfl

theorem ap3 (m : Mode) (w : Word) :
    i16FromBits (ε := ε) m (toBe ((w &&& 0xF800#16) >>> 11)) 5 = .ok (signedAt w 11 5) := by
  rw [i16FromBits_toBe _ _ _ (by decide) (by decide), toNat_and_shift w _ 11 5 (by decide), bmod_mod_pow]
  rfl

/-! ### Patterns -/

theorem repeatChessboard_map {α β : Type} (f : α → β) (v : α × α × α × α) :
    Mlx90640.repeatChessboard (f v.1, f v.2.1, f v.2.2.1, f v.2.2.2) = (Mlx90640.repeatChessboard v).map f := by
  unfold Mlx90640.repeatChessboard
  simp only [List.map_flatten, List.map_replicate, List.map_append, List.map_cons, List.map_nil]

theorem repeatChessboard_nat : Mlx90640.repeatChessboard ((0, 1, 2, 3) : Nat × Nat × Nat × Nat) =
    (List.range 768).map (Ee640.byParity 0 1 2 3) := by decide +kernel

theorem byParity_map {α β : Type} (f : α → β) (a b c d : α) (i : Nat) :
    f (Ee640.byParity a b c d i) = Ee640.byParity (f a) (f b) (f c) (f d) i := by
  unfold Ee640.byParity
  split <;> split <;> rfl

theorem repeatChessboard_eq {α : Type} (a b c d : α) :
    Mlx90640.repeatChessboard (a, b, c, d) = (List.range 768).map (Ee640.byParity a b c d) := by
  let f : Nat → α := fun n => match n with | 0 => a | 1 => b | 2 => c | _ => d
  have h := repeatChessboard_map f (0, 1, 2, 3)
  rw [repeatChessboard_nat, List.map_map] at h
  refine h.trans (List.map_congr_left fun i _ => ?_)
  exact byParity_map f 0 1 2 3 i

theorem chessboardIter_eq {α : Type} (a b c d : α) :
    Mlx90640.chessboardIter (a, b, c, d) = (List.range 768).map (Ee640.byParity a b c d) := by
  unfold Mlx90640.chessboardIter
  refine List.map_congr_left fun i _ => ?_
  unfold Ee640.byParity Ee640.row Ee640.col
  have hw : Mlx90640.width = 32 := rfl
  rw [hw]
  rcases Nat.mod_two_eq_zero_or_one (i / 32) with h1 | h1 <;>
    rcases Nat.mod_two_eq_zero_or_one (i % 32) with h2 | h2 <;> simp [h1, h2]

/-! ### The decoded calibration -/

section
variable (E : Nat → Word)
open Ee640

/-- Scale of the voltage coefficients. -/
def kVScale : F := exp2 (ofInt (bitsAt (E 0x2438) 8 4 : Nat))
def kTaScale : F := exp2 (ofInt (kTaScaleExp E : Nat))
def alphaScale : F := exp2 (ofInt (alphaScaleExp E : Nat))

def offsetBulk (i : Nat) : Int := wrap16 (offsetAverage E + offsetRow E i + offsetCol E i)
def alphaBulk (i : Nat) : Int := wrap16 (alphaAverage E + alphaRow E i + alphaCol E i)

def kSTo640 : List F :=
  let scale : F := exp2 (ofInt (bitsAt (E 0x243F) 0 4 + 8 : Nat))
  [ofInt (signedAt (E 0x243D) 0 8) /. scale, ofInt (signedAt (E 0x243D) 8 8) /. scale,
   ofInt (signedAt (E 0x243E) 0 8) /. scale, ofInt (signedAt (E 0x243E) 8 8) /. scale]

def cornerTemps640 : List Int := [-40, 0, ct3 E, ct4 E]

def alphaCp640 : F :=
  ofInt (bitsAt (E 0x2439) 0 10 : Nat) /. exp2 (ofInt (bitsAt (E 0x2420) 12 4 + 27 : Nat))

/-- The interleaving coefficients (0x2435). -/
def il1 : F := ofInt (signedAt (E 0x2435) 0 6) /. lit 16
def il2 : F := ofInt (signedAt (E 0x2435) 6 5) /. lit 2
def il3 : F := ofInt (signedAt (E 0x2435) 11 5) /. lit 8

def pixel640 (i : Nat) : Mlx90640.PixelOut F :=
  pixelOf (bitsAt (E 0x2410) 0 4) (bitsAt (E 0x2420) 0 4) (bitsAt (E 0x2438) 0 4) (alphaScale E) (kTaScale E)
    ((offsetBulk E i, ofInt (alphaBulk E i)), kTaRc E i) (E (0x2440 + i))

/-- Everything but the pixels. -/
def decode640With (outs : List (Mlx90640.PixelOut F)) : Mlx90640.Calibration F where
  kVdd := wrap16 (signedAt (E 0x2433) 8 8 * 2 ^ 5)
  vdd25 := ((bitsAt (E 0x2433) 0 8 : Int) - 256) * 32 - 8192
  resolution := CtrlField.resolution.decode (bitsAt (E 0x2438) 12 2)
  kVptat := ofInt (signedAt (E 0x2432) 10 6) /. lit 4096
  kTptat := ofInt (signedAt (E 0x2432) 0 10) /. lit 8
  vptat25 := ofInt (signedAt (E 0x2431) 0 16)
  alphaPtat := ofInt ((bitsAt (E 0x2410) 12 4 / 4 + 8 : Nat))
  gain := ofInt (signedAt (E 0x2430) 0 16)
  kSTa := ofInt (signedAt (E 0x243C) 8 8) /. exp2 (lit 13)
  cornerTemps := cornerTemps640 E
  kSTo := kSTo640 E
  alphaCorrection := (List.range 4).map (corr 1 (cornerTemps640 E) (kSTo640 E))
  alphaPixels := outs.map (·.alpha)
  alphaCp := (alphaCp640 E, alphaCp640 E *. (lit 1 +. ofInt (signedAt (E 0x2439) 10 6) /. exp2 (lit 7)))
  offsetPixels := outs.map (·.offset)
  offsetCp := (signedAt (E 0x243A) 0 10, signedAt (E 0x243A) 0 10 + signedAt (E 0x243A) 10 6)
  kVPattern := (ofInt (signedAt (E 0x2434) 12 4) /. kVScale E, ofInt (signedAt (E 0x2434) 8 4) /. kVScale E,
    ofInt (signedAt (E 0x2434) 4 4) /. kVScale E, ofInt (signedAt (E 0x2434) 0 4) /. kVScale E)
  kVCp := ofInt (signedAt (E 0x243B) 8 8) /. kVScale E
  kTaPixels := outs.map (·.kTa)
  kTaCp := ofInt (signedAt (E 0x243B) 0 8) /. kTaScale E
  tgc := if signedAt (E 0x243C) 0 8 = 0 then none else some (ofInt (signedAt (E 0x243C) 0 8) /. exp2 (lit 5))
  ilPixels := ((neg (il3 E), il2 E -. il3 E, neg (il2 E +. il3 E)),
    (il3 E, neg (il2 E -. il3 E), il2 E +. il3 E))
  ilCp := il1 E
  failed := outs.map (·.failed)
  outlier := outs.map (·.outlier)

/-- All pixels. -/
@[irreducible] def pixels640 : List (Mlx90640.PixelOut F) := (List.range 768).map (pixel640 E)

/-- The calibration an EEPROM holds. -/
def decode640 : Mlx90640.Calibration F := decode640With E (pixels640 E)

theorem pixels640_get {i : Nat} (hi : i < 768) : (pixels640 (F := F) E)[i]? = some (pixel640 E i) := by
  unfold pixels640
  rw [List.getElem?_map, List.getElem?_range hi]; rfl

theorem pixels640_length : (pixels640 (F := F) E).length = 768 := by
  unfold pixels640
  rw [List.length_map, List.length_range]

end

theorem resolution_fromRaw (n : Nat) (h : n < 4) :
    Resolution.fromRaw (BitVec.ofNat 16 n) = .ok (CtrlField.resolution.decode n) := by
  match n, h with
  | 0, _ => rfl
  | 1, _ => rfl
  | 2, _ => rfl
  | 3, _ => rfl

theorem bitsAt_top2 (w : Word) : bitsAt w 12 4 % 4 = bitsAt w 12 2 := by
  unfold bitsAt; omega

theorem bitsAt_lt_two_pow (w : Word) (lo n : Nat) : bitsAt w lo n < 2 ^ n := by
  unfold bitsAt; exact Nat.mod_lt _ (by positivity)

theorem ew_lit {a k : Nat} (h : a = 0x2400 + k) : eepromWord data a = ew data k := by rw [h, eepromWord_eq]

/-- What the row and column passes produce, for each pixel. -/
def items640 (E : Nat → Word) : List ((Int × F) × Int) :=
  (List.range 768).map fun i => ((offsetBulk E i, ofInt (alphaBulk E i)), Ee640.kTaRc E i)

theorem block_offset (i : Nat) :
    blockAvg data 16 = Ee640.offsetAverage (eepromWord data) ∧
    blockRow data 16 i = Ee640.offsetRow (eepromWord data) i ∧
    blockCol data 16 i = Ee640.offsetCol (eepromWord data) i := by
  unfold blockAvg blockRow blockCol Ee640.offsetAverage Ee640.offsetRow Ee640.offsetCol Ee640.nibbleTable
  rw [ew_lit (a := 0x2411) (k := 17) rfl, ew_lit (a := 0x2410) (k := 16) rfl,
    ew_lit (a := 0x2412 + Ee640.row i / 4) (k := 16 + 2 + Ee640.row i / 4) (by omega),
    ew_lit (a := 0x2418 + Ee640.col i / 4) (k := 16 + 8 + Ee640.col i / 4) (by omega)]
  exact ⟨rfl, rfl, rfl⟩

theorem block_alpha (i : Nat) :
    blockAvg data 32 = Ee640.alphaAverage (eepromWord data) ∧
    blockRow data 32 i = Ee640.alphaRow (eepromWord data) i ∧
    blockCol data 32 i = Ee640.alphaCol (eepromWord data) i := by
  unfold blockAvg blockRow blockCol Ee640.alphaAverage Ee640.alphaRow Ee640.alphaCol Ee640.nibbleTable
  rw [ew_lit (a := 0x2421) (k := 33) rfl, ew_lit (a := 0x2420) (k := 32) rfl,
    ew_lit (a := 0x2422 + Ee640.row i / 4) (k := 32 + 2 + Ee640.row i / 4) (by omega),
    ew_lit (a := 0x2428 + Ee640.col i / 4) (k := 32 + 8 + Ee640.col i / 4) (by omega)]
  exact ⟨rfl, rfl, rfl⟩

end Mlx.Proofs
