import Verif.Proofs.Eeprom640
import Verif.Model.Eeprom641
import Verif.Spec.Eeprom641
/-
`Mlx90641Calibration::from_data` as a function of the decoded EEPROM words.
-/
set_option linter.unusedSectionVars false
set_option autoImplicit false
namespace Mlx.Proofs
open Mlx Mlx.Spec F32Ops
variable {F : Type} [F32Ops F] {data : List Byte}

/-! ### Reading words -/

theorem signedAt_zero (w : Word) (n : Nat) : signedAt w 0 n = Int.bmod w.toNat (2 ^ n) := by
  unfold signedAt; rw [Nat.pow_zero, Nat.div_one]

theorem i16FromBits_word {ε : Type} (m : Mode) (w : Word) (n : Nat) (h1 : 1 ≤ n) (h2 : n ≤ 16) :
    i16FromBits (ε := ε) m (toBe w) n = .ok (signedAt w 0 n) := by
  rw [i16FromBits_toBe m w n h1 h2, signedAt_zero]

theorem hamU16_at (A : Nat) (h : pos (A + 1) ≤ data.length) :
    Mlx90641.getHammingU16 (data.drop (pos A)) =
      (Hamming.validateChecksum (ew data A) >>= fun w => .ok (w, data.drop (pos (A + 1)))) := by
  unfold Mlx90641.getHammingU16
  rw [Parser.bind_apply, getU16_word A h, Res.ok_bind]
  unfold Parser.lift
  cases Hamming.validateChecksum (ew data A) <;> rfl

theorem split65_fst (w : Word) : (Mlx90641.split65 w).1.toNat = bitsAt w 5 6 := by
  show (((w &&& 0x07E0#16) >>> 5).setWidth 8).toNat = _
  rw [BitVec.toNat_setWidth, toNat_and_shift w _ 5 6 (by decide)]
  unfold bitsAt
  have : w.toNat / 2 ^ 5 % 2 ^ 6 < 2 ^ 6 := Nat.mod_lt _ (by decide)
  omega

theorem split65_snd (w : Word) : (Mlx90641.split65 w).2.toNat = bitsAt w 0 5 := by
  show ((w &&& 0x001F#16).setWidth 8).toNat = _
  rw [BitVec.toNat_setWidth, toNat_and_low w _ 5 (by decide)]
  unfold bitsAt
  have : w.toNat % 2 ^ 5 < 2 ^ 5 := Nat.mod_lt _ (by decide)
  omega

theorem toInt_small {b : Byte} (h : b.toNat < 128) : b.toInt = b.toNat := by
  rw [BitVec.toInt_eq_toNat_bmod, Int.bmod_def]; split <;> omega

theorem split65_kTa (m : Mode) (w : Word) :
    i16FromBits (ε := LibErr) m [(Mlx90641.split65 w).1] 6 = .ok (signedAt w 5 6) := by
  have h := bitsAt_lt_two_pow w 5 6
  rw [i16FromBits_one _ _ _ (by decide) (by decide), toInt_small (by rw [split65_fst]; omega), split65_fst]
  unfold signedAt bitsAt
  rw [bmod_mod_pow]

theorem split65_kV (m : Mode) (w : Word) :
    i16FromBits (ε := LibErr) m [(Mlx90641.split65 w).2] 5 = .ok (signedAt w 0 5) := by
  have h := bitsAt_lt_two_pow w 0 5
  rw [i16FromBits_one _ _ _ (by decide) (by decide), toInt_small (by rw [split65_snd]; omega), split65_snd]
  unfold signedAt bitsAt
  rw [bmod_mod_pow]

/-! ### The decoded calibration -/

section
variable (W : Nat → Word)
open Ee641

def kSTo641 : List F :=
  let scale : F := exp2 (ofInt ((W 0x2434).toNat : Int))
  [ofInt (signedAt (W 0x2435) 0 11) /. scale, ofInt (signedAt (W 0x2436) 0 11) /. scale,
   ofInt (signedAt (W 0x2437) 0 11) /. scale, ofInt (signedAt (W 0x2438) 0 11) /. scale,
   ofInt (signedAt (W 0x2439) 0 11) /. scale, ofInt (signedAt (W 0x243B) 0 11) /. scale,
   ofInt (signedAt (W 0x243D) 0 11) /. scale, ofInt (signedAt (W 0x243F) 0 11) /. scale]

def cornerTemps641 : List Int :=
  [-40, -20, 0, 80, 120, (W 0x243A).toInt, (W 0x243C).toInt, (W 0x243E).toInt]

def cpConstant (w : Word) : F := ofInt (signedAt w 0 6) /. exp2 (ofInt (bitsAt w 6 5 : Nat))

def consts641 : Mlx90641.PixelConsts F where
  offsetScale := wrap16 (2 ^ offsetExp W)
  offsetAverage := offsetAverage W
  kTaAverage := signedAt (W 0x2415) 0 11
  kTaScale1 := exp2 (ofInt (bitsAt (W 0x2416) 5 6 : Nat))
  kTaScale2 := exp2 (ofInt (bitsAt (W 0x2416) 0 5 : Nat))
  kVAverage := signedAt (W 0x2417) 0 11
  kVScale1 := exp2 (ofInt (bitsAt (W 0x2418) 5 6 : Nat))
  kVScale2 := exp2 (ofInt (bitsAt (W 0x2418) 0 5 : Nat))

def reference641 (r : Nat) : F := ofInt ((W (0x241C + r)).toNat : Int) /. exp2 (ofInt (referenceExp W r : Nat))

def pixel641 (i : Nat) : Mlx90641.PixelOut F :=
  if isFailed W i then
    { offset0 := 0, offset1 := 0, alpha := lit 0, kTa := lit 0, kV := lit 0, failed := true }
  else
    { offset0 := wrap16 (offsetAverage W + offsetRaw W .zero i * 2 ^ offsetExp W)
      offset1 := wrap16 (offsetAverage W + offsetRaw W .one i * 2 ^ offsetExp W)
      alpha := (ofInt (alphaRaw W i : Nat) /. lit 2047) *. reference641 W (rowPair i)
      kTa := (ofInt (kTaRaw W i) *. exp2 (ofInt (bitsAt (W 0x2416) 0 5 : Nat)) +. ofInt (signedAt (W 0x2415) 0 11)) /.
        exp2 (ofInt (bitsAt (W 0x2416) 5 6 : Nat))
      kV := (ofInt (kVRaw W i) *. exp2 (ofInt (bitsAt (W 0x2418) 0 5 : Nat)) +. ofInt (signedAt (W 0x2417) 0 11)) /.
        exp2 (ofInt (bitsAt (W 0x2418) 5 6 : Nat))
      failed := false }

def decode641With (outs : List (Mlx90641.PixelOut F)) : Mlx90641.Calibration F where
  kVdd := wrap16 (signedAt (W 0x2427) 0 11 * 2 ^ 5)
  vdd25 := wrap16 (signedAt (W 0x2426) 0 11 * 2 ^ 5)
  resolution := CtrlField.resolution.decode (bitsAt (W 0x2433) 9 2)
  kVptat := ofInt (signedAt (W 0x242B) 0 11) /. lit 4096
  kTptat := ofInt (signedAt (W 0x242A) 0 11) /. lit 8
  vptat25 := ofInt ((combined W 0x2428).toNat : Int)
  alphaPtat := ofInt ((W 0x242C).toNat : Int) /. lit 128
  gain := ofInt ((combined W 0x2424).toNat : Int)
  kSTa := ofInt (signedAt (W 0x2422) 0 11) /. exp2 (lit 15)
  cornerTemps := cornerTemps641 W
  kSTo := kSTo641 W
  alphaCorrection := (List.range 8).map (corr 2 (cornerTemps641 W) (kSTo641 W))
  emissivity := some (ofInt (signedAt (W 0x2423) 0 11) /. exp2 (lit 9))
  alphaPixels := outs.map (·.alpha)
  alphaCp := ofInt ((W 0x242D).toNat : Int) /. exp2 (ofInt ((W 0x242E).toNat : Int))
  offsetPixels := (outs.map (·.offset0), outs.map (·.offset1))
  offsetCp := (combined W 0x242F).toInt
  kVPixels := outs.map (·.kV)
  kVCp := cpConstant (W 0x2432)
  kTaPixels := outs.map (·.kTa)
  kTaCp := cpConstant (W 0x2431)
  tgc := some (ofInt (signedAt (W 0x2433) 0 9) /. lit 64)
  failed := outs.map (·.failed)

@[irreducible] def pixels641 (n : Nat) : List (Mlx90641.PixelOut F) := (List.range n).map (pixel641 W)

def decode641 : Mlx90641.Calibration F := decode641With W (pixels641 W 192)

theorem pixels641_get {n i : Nat} (hi : i < n) : (pixels641 (F := F) W n)[i]? = some (pixel641 W i) := by
  unfold pixels641
  rw [List.getElem?_map, List.getElem?_range hi]; rfl

theorem pixels641_length (n : Nat) : (pixels641 (F := F) W n).length = n := by
  unfold pixels641
  rw [List.length_map, List.length_range]

end

/-! ### Scalars -/

section
variable {W : Nat → Word}

theorem cpConstant_at (m : Mode) (A : Nat) (w : Word)
    (h : Mlx90641.getHammingU16 (data.drop (pos A)) = .ok (w, data.drop (pos (A + 1)))) :
    Mlx90641.getScaledCpConstant (F := F) m (data.drop (pos A)) = .ok (cpConstant w, data.drop (pos (A + 1))) := by
  unfold Mlx90641.getScaledCpConstant
  rw [Parser.bind_apply, h, Res.ok_bind, Parser.bind_apply]
  simp only
  rw [ap1, lift_ok, Res.ok_bind, Parser.pure_apply, toNat_and_shift w _ 6 5 (by decide)]
  rfl

theorem resolution_word (w : Word) : (w &&& 0x0600#16) >>> 9 = BitVec.ofNat 16 (bitsAt w 9 2) := by
  apply BitVec.eq_of_toNat_eq
  rw [toNat_and_shift w _ 9 2 (by decide), BitVec.toNat_ofNat]
  have := bitsAt_lt_two_pow w 9 2
  unfold bitsAt at *
  omega

theorem tgc_word (m : Mode) (w : Word) :
    i16FromBits (ε := LibErr) m (toBe (w &&& 0x01FF#16)) 9 = .ok (signedAt w 0 9) := by
  rw [i16FromBits_toBe _ _ _ (by decide) (by decide), toNat_and_low w _ 9 (by decide), bmod_mod_pow, signedAt_zero]

theorem toInt_of_lt {w : Word} (h : w.toNat < 2048) : w.toInt = w.toNat := by
  rw [BitVec.toInt_eq_toNat_bmod, Int.bmod_def]; split <;> omega

theorem temperatureRange_eq (m : Mode) (h : 128 ≤ data.length)
    (hv : ∀ k, 52 ≤ k → k < 64 → Hamming.validateChecksum (ew data k) = .ok (W (0x2400 + k))) :
    Mlx90641.temperatureRangeData (F := F) m (data.drop (pos 52)) =
      .ok ((cornerTemps641 W, kSTo641 W), data.drop (pos 64)) := by
  have hp : ∀ k, k ≤ 64 → pos k ≤ data.length := by
    intro k hk; have := pos_add 0 k; have h0 : pos 0 = 0 := by unfold pos; rfl
    rw [Nat.zero_add] at this; omega
  have hU : ∀ k, 52 ≤ k → k < 64 → Mlx90641.getHammingU16 (data.drop (pos k)) =
      .ok (W (0x2400 + k), data.drop (pos (k + 1))) := by
    intro k h1 h2
    rw [hamU16_at k (hp _ (by omega)), hv k h1 h2]; rfl
  have hI : ∀ k, 52 ≤ k → k < 64 → Mlx90641.getHammingI16 m (data.drop (pos k)) =
      .ok (signedAt (W (0x2400 + k)) 0 11, data.drop (pos (k + 1))) := by
    intro k h1 h2
    unfold Mlx90641.getHammingI16
    rw [Parser.bind_apply, hU k h1 h2, Res.ok_bind]
    simp only
    rw [i16FromBits_word m _ 11 (by decide) (by decide), lift_ok]
  unfold Mlx90641.temperatureRangeData
  rw [Parser.bind_apply, hU 52 (by decide) (by decide), Res.ok_bind, Parser.bind_apply]
  simp only [Nat.reduceAdd]
  rw [hI 53 (by decide) (by decide), Res.ok_bind, Parser.bind_apply]
  simp only [Nat.reduceAdd]
  rw [hI 54 (by decide) (by decide), Res.ok_bind, Parser.bind_apply]
  simp only [Nat.reduceAdd]
  rw [hI 55 (by decide) (by decide), Res.ok_bind, Parser.bind_apply]
  simp only [Nat.reduceAdd]
  rw [hI 56 (by decide) (by decide), Res.ok_bind, Parser.bind_apply]
  simp only [Nat.reduceAdd]
  rw [hI 57 (by decide) (by decide), Res.ok_bind, Parser.bind_apply]
  simp only [Nat.reduceAdd]
  rw [hU 58 (by decide) (by decide), Res.ok_bind, Parser.bind_apply]
  simp only [Nat.reduceAdd]
  rw [hI 59 (by decide) (by decide), Res.ok_bind, Parser.bind_apply]
  simp only [Nat.reduceAdd]
  rw [hU 60 (by decide) (by decide), Res.ok_bind, Parser.bind_apply]
  simp only [Nat.reduceAdd]
  rw [hI 61 (by decide) (by decide), Res.ok_bind, Parser.bind_apply]
  simp only [Nat.reduceAdd]
  rw [hU 62 (by decide) (by decide), Res.ok_bind, Parser.bind_apply]
  simp only [Nat.reduceAdd]
  rw [hI 63 (by decide) (by decide), Res.ok_bind, Parser.pure_apply]
  simp only [Nat.reduceAdd]
  rfl

theorem rangeCorrection641_ok (m : Mode) (hs : ∀ k, 34 ≤ k → k < 64 → (W (0x2400 + k)).toNat < 2048) :
    alphaCorrectionCoefficients (F := F) (ε := LibErr) m Mlx90641.numCornerTemps Mlx90641.cam.basicRange
      (cornerTemps641 W) (kSTo641 W) = .ok ((List.range 8).map (corr 2 (cornerTemps641 W) (kSTo641 W))) := by
  have s58 := hs 58 (by decide) (by decide)
  have s60 := hs 60 (by decide) (by decide)
  have s62 := hs 62 (by decide) (by decide)
  simp only [Nat.reduceAdd] at s58 s60 s62
  have t58 := toInt_of_lt s58
  have t60 := toInt_of_lt s60
  have t62 := toInt_of_lt s62
  refine alphaCorrection_ok m 8 2 _ _ rfl (by show 2 < 8; decide) rfl ?_
  intro k hk
  have hk : k < 7 := by
    have : (cornerTemps641 W).length = 8 := rfl
    omega
  match k, hk with
  | 0, _ => show Fits16 (-20 - -40); decide
  | 1, _ => show Fits16 (0 - -20); decide
  | 2, _ => show Fits16 (80 - 0); decide
  | 3, _ => show Fits16 (120 - 80); decide
  | 4, _ => show Fits16 ((W 0x243A).toInt - 120); unfold Fits16; omega
  | 5, _ => show Fits16 ((W 0x243C).toInt - (W 0x243A).toInt); unfold Fits16; omega
  | 6, _ => show Fits16 ((W 0x243E).toInt - (W 0x243C).toInt); unfold Fits16; omega

theorem parseScalars_eq (m : Mode) (h : 128 ≤ data.length)
    (hv : ∀ k, 34 ≤ k → k < 64 → Hamming.validateChecksum (ew data k) = .ok (W (0x2400 + k)))
    (hs : ∀ k, 34 ≤ k → k < 64 → (W (0x2400 + k)).toNat < 2048) :
    Mlx90641.parseScalars (F := F) m data = .ok (decode641With W [], data.drop (pos 64)) := by
  have hp : ∀ k, k ≤ 64 → pos k ≤ data.length := by
    intro k hk; have := pos_add 0 k; have h0 : pos 0 = 0 := by unfold pos; rfl
    rw [Nat.zero_add] at this; omega
  have hU : ∀ k, 34 ≤ k → k < 64 → Mlx90641.getHammingU16 (data.drop (pos k)) =
      .ok (W (0x2400 + k), data.drop (pos (k + 1))) := by
    intro k h1 h2
    rw [hamU16_at k (hp _ (by omega)), hv k h1 h2]; rfl
  have hI : ∀ k, 34 ≤ k → k < 64 → Mlx90641.getHammingI16 m (data.drop (pos k)) =
      .ok (signedAt (W (0x2400 + k)) 0 11, data.drop (pos (k + 1))) := by
    intro k h1 h2
    unfold Mlx90641.getHammingI16
    rw [Parser.bind_apply, hU k h1 h2, Res.ok_bind]
    simp only
    rw [i16FromBits_word m _ 11 (by decide) (by decide), lift_ok]
  have hC : ∀ k, 34 ≤ k → k < 63 → Mlx90641.getCombinedWord (data.drop (pos k)) =
      .ok (Ee641.combined W (0x2400 + k), data.drop (pos (k + 2))) := by
    intro k h1 h2
    unfold Mlx90641.getCombinedWord
    rw [Parser.bind_apply, hU k h1 (by omega), Res.ok_bind, Parser.bind_apply]
    simp only
    rw [hU (k + 1) (by omega) (by omega), Res.ok_bind, Parser.pure_apply]
    rfl
  have hK : ∀ k, 34 ≤ k → k < 64 → Mlx90641.getScaledCpConstant (F := F) m (data.drop (pos k)) =
      .ok (cpConstant (W (0x2400 + k)), data.drop (pos (k + 1))) :=
    fun k h1 h2 => cpConstant_at m k _ (hU k h1 h2)
  have hR : Mlx90641.getResolutionWithTgc (F := F) m (data.drop (pos 51)) =
      .ok ((CtrlField.resolution.decode (bitsAt (W 0x2433) 9 2), ofInt (signedAt (W 0x2433) 0 9) /. lit 64),
        data.drop (pos 52)) := by
    unfold Mlx90641.getResolutionWithTgc
    rw [Parser.bind_apply, hU 51 (by decide) (by decide), Res.ok_bind, Parser.bind_apply]
    simp only [Nat.reduceAdd]
    rw [resolution_word, resolution_fromRaw _ (bitsAt_lt_two_pow _ 9 2), lift_ok, Res.ok_bind, Parser.bind_apply]
    simp only
    rw [tgc_word, lift_ok, Res.ok_bind, Parser.pure_apply]
  have hT := temperatureRange_eq (F := F) m h fun k h1 h2 => hv k (by omega) h2
  have hac := rangeCorrection641_ok (F := F) m hs
  unfold Mlx90641.parseScalars
  have h34 : Mlx90641.offKsTa * 2 = pos 34 := by unfold pos; rfl
  rw [Parser.bind_apply, h34, advance_zero _ (hp _ (by decide)), Res.ok_bind, Parser.bind_apply]
  simp only
  rw [hI 34 (by decide) (by decide), Res.ok_bind, Parser.bind_apply]
  simp only [Nat.reduceAdd]
  rw [hI 35 (by decide) (by decide), Res.ok_bind, Parser.bind_apply]
  simp only [Nat.reduceAdd]
  rw [hC 36 (by decide) (by decide), Res.ok_bind, Parser.bind_apply]
  simp only [Nat.reduceAdd]
  rw [hI 38 (by decide) (by decide), Res.ok_bind, Parser.bind_apply]
  simp only [Nat.reduceAdd]
  rw [hI 39 (by decide) (by decide), Res.ok_bind, Parser.bind_apply]
  simp only [Nat.reduceAdd]
  rw [hC 40 (by decide) (by decide), Res.ok_bind, Parser.bind_apply]
  simp only [Nat.reduceAdd]
  rw [hI 42 (by decide) (by decide), Res.ok_bind, Parser.bind_apply]
  simp only [Nat.reduceAdd]
  rw [hI 43 (by decide) (by decide), Res.ok_bind, Parser.bind_apply]
  simp only [Nat.reduceAdd]
  rw [hU 44 (by decide) (by decide), Res.ok_bind, Parser.bind_apply]
  simp only [Nat.reduceAdd]
  rw [hU 45 (by decide) (by decide), Res.ok_bind, Parser.bind_apply]
  simp only [Nat.reduceAdd]
  rw [hU 46 (by decide) (by decide), Res.ok_bind, Parser.bind_apply]
  simp only [Nat.reduceAdd]
  rw [hC 47 (by decide) (by decide), Res.ok_bind, Parser.bind_apply]
  simp only [Nat.reduceAdd]
  rw [hK 49 (by decide) (by decide), Res.ok_bind, Parser.bind_apply]
  simp only [Nat.reduceAdd]
  rw [hK 50 (by decide) (by decide), Res.ok_bind, Parser.bind_apply]
  simp only [Nat.reduceAdd]
  rw [hR, Res.ok_bind]
  simp only
  rw [Parser.bind_apply, hT, Res.ok_bind]
  simp only
  rw [Parser.bind_apply, hac, lift_ok, Res.ok_bind, Parser.pure_apply, shl16_eq, shl16_eq]
  unfold decode641With
  simp only [List.map_nil]

end
end Mlx.Proofs
