import Verif.Proofs.Agree641
import Verif.Proofs.Example
import Verif.Props.Eeprom640
/-
C32 to C37, and C28, C29, C38 for the MLX90641: decoding an EEPROM dump.
-/
set_option linter.unusedSectionVars false
set_option autoImplicit false
namespace Mlx.Props
open Mlx Mlx.Spec Mlx.Proofs F32Ops
variable {F : Type} [F32Ops F]

theorem readAddresses_bounds {a : Nat} (h : a ∈ Ee641.readAddresses 192) :
    0x2410 ≤ a ∧ a < 0x2740 ∧ a ≠ 0x2413 ∧ a ≠ 0x2414 := by
  unfold Ee641.readAddresses Ee641.scalarAddresses Ee641.sharedAddresses at h
  rw [List.mem_append, List.mem_append, List.mem_append, List.mem_range'_1, List.mem_range'_1, List.mem_flatMap] at h
  rcases h with (h | h | h) | ⟨i, hi, h⟩
  · omega
  · simp only [List.mem_cons, List.not_mem_nil, or_false] at h; omega
  · omega
  · have hi := List.mem_range.1 hi
    unfold Ee641.pixelAddresses at h
    simp only [List.mem_cons, List.not_mem_nil, or_false] at h; omega

theorem widen_lt (D : Nat → BitVec 11) (a : Nat) : (Ee641.widen D a).toNat < 2048 := by
  unfold Ee641.widen
  rw [BitVec.toNat_setWidth]
  have := (D a).isLt
  omega

theorem decoded_of_holds {data : List Byte} {D : Nat → BitVec 11} {n : Nat}
    (h : Ee641.Holds data D (Ee641.readAddresses n)) : Decoded data (Ee641.widen D) n := by
  refine ⟨fun a _ => widen_lt D a, fun k hk => ?_⟩
  have := h _ hk
  rw [eepromWord_eq] at this
  exact ((C04_decoder_characterisation (ew data k)).1 _).2 ⟨D (0x2400 + k), rfl, this⟩

/-- Which dumps are accepted. -/
theorem accepted641 {data : List Byte} {m : Mode} {c : Mlx90641.Calibration F} (h : Mlx90641.fromData m data = .ok c) :
    1664 ≤ data.length ∧ ∀ a ∈ Ee641.readAddresses 192, ¬ Ee641.Uncorrectable (eepromWord data a) := by
  have hout := fromData_outcome (F := F) (m := m) (data := data) (Q := True) (fun _ _ _ _ => trivial) (fun _ _ _ _ _ => trivial)
  rw [h] at hout
  unfold Outcome at hout
  cases hf : ((Ee641.examined data.length).map (eepromWord data)).find? bad with
  | some w =>
    rw [hf] at hout
    rcases hout with h' | ⟨_, h'⟩ <;> cases h'
  | none =>
    rw [hf] at hout
    rcases hout with h' | ⟨_, h'⟩
    · have hlen : 1664 ≤ data.length := by
        by_contra hl
        unfold lengthOutcome at h'
        by_cases h1280 : data.length < 1280
        · rw [if_pos h1280] at h'; cases h'
        · rw [if_neg h1280, if_pos (by omega)] at h'; cases h'
      refine ⟨hlen, fun a ha hu => ?_⟩
      have he : Ee641.examined data.length = Ee641.readAddresses 192 := by
        unfold Ee641.examined
        rw [if_neg (by omega), Nat.min_eq_left (by omega)]
      rw [he] at hf
      have := List.find?_eq_none.1 hf _ (List.mem_map.2 ⟨a, ha, rfl⟩)
      exact this ((bad_iff _).2 hu)
    · cases h'

/-- The values an accepted dump holds. -/
theorem holds_of_accepted {data : List Byte} {m : Mode} {c : Mlx90641.Calibration F}
    (h : Mlx90641.fromData m data = .ok c) : ∃ D, Ee641.Holds data D (Ee641.readAddresses 192) := by
  have hg := (accepted641 h).2
  have hd : ∀ a, ∃ d : BitVec 11, a ∈ Ee641.readAddresses 192 → WithinOneBit (eepromWord data a) (codeword d) := by
    intro a
    by_cases ha : a ∈ Ee641.readAddresses 192
    · have := hg a ha
      unfold Ee641.Uncorrectable at this
      obtain ⟨d, hd⟩ := not_forall.1 this
      exact ⟨d, fun _ => not_not.1 hd⟩
    · exact ⟨0, fun h => absurd h ha⟩
  choose D hD using hd
  exact ⟨D, fun a ha => hD a ha⟩

/-- The accepted calibration in terms of the values held. -/
theorem decode_of_accepted {data : List Byte} {m : Mode} {c : Mlx90641.Calibration F} {D : Nat → BitVec 11}
    (h : Mlx90641.fromData m data = .ok c) (hD : Ee641.Holds data D (Ee641.readAddresses 192)) :
    (m = .wrapping ∨ Ee641.OffsetsFit (Ee641.widen D)) ∧ c = decode641 (Ee641.widen D) := by
  rw [fromData641_full m (accepted641 h).1 (decoded_of_holds hD)] at h
  exact onlyIf_ok h

/-! ### Exactly which way decoding ends -/

theorem prefix_mem {l p q before rest : List Nat} {b : Nat} (hl : l.Nodup) (h1 : l = p ++ b :: q)
    (h2 : l = before ++ rest) (hb : b ∈ before) : ∀ a ∈ p, a ∈ before := by
  rw [h1] at h2
  rcases List.append_eq_append_iff.1 h2 with ⟨t, h, _⟩ | ⟨t, h, h'⟩
  · intro a ha; rw [h]; exact List.mem_append_left _ ha
  · exfalso
    rw [h1, h, List.append_assoc] at hl
    have := (List.nodup_append.1 hl).2.2 b hb b
    simp at this

theorem good_prefix {l p q before rest : List Nat} (h1 : l = p ++ q) (h2 : l = before ++ rest)
    (hr : ∀ a after, rest = a :: after → a ∉ p) : ∀ a ∈ p, a ∈ before := by
  rw [h1] at h2
  rcases List.append_eq_append_iff.1 h2 with ⟨t, h, _⟩ | ⟨t, h, h'⟩
  · intro a ha; rw [h]; exact List.mem_append_left _ ha
  · cases t with
    | nil => intro a ha; rw [h, List.append_nil] at ha; exact ha
    | cons x t =>
      exfalso
      refine hr x (t ++ q) h' ?_
      rw [h]; simp

theorem readAddresses_nodup : (Ee641.readAddresses 192).Nodup := by
  unfold Ee641.readAddresses
  rw [List.nodup_append]
  refine ⟨by decide, ?_, ?_⟩
  · rw [List.nodup_flatMap]
    refine ⟨fun i hi => ?_, ?_⟩
    · have := List.mem_range.1 hi
      simp only [Ee641.pixelAddresses, List.nodup_cons, List.mem_cons, List.not_mem_nil, List.nodup_nil, or_false, not_or, not_false_eq_true, and_true]
      omega
    · refine List.Pairwise.imp_of_mem ?_ (List.nodup_range (n := 192))
      intro i j hi hj hne a h1 h2
      have := List.mem_range.1 hi
      have := List.mem_range.1 hj
      simp only [Ee641.pixelAddresses, List.mem_cons, List.not_mem_nil, or_false] at h1 h2
      omega
  · intro a ha b hb
    have : ∀ a ∈ Ee641.scalarAddresses ++ Ee641.sharedAddresses, a < 0x2440 := by decide
    have := this a ha
    obtain ⟨i, hi, hb⟩ := List.mem_flatMap.1 hb
    simp only [Ee641.pixelAddresses, List.mem_cons, List.not_mem_nil, or_false] at hb
    omega

theorem readAddresses_split {n i : Nat} (hi : i < n) : ∃ q,
    Ee641.readAddresses n = Ee641.readAddresses (i + 1) ++ q := by
  refine ⟨(List.range' (i + 1) (n - (i + 1))).flatMap Ee641.pixelAddresses, ?_⟩
  unfold Ee641.readAddresses
  rw [List.append_assoc (Ee641.scalarAddresses ++ Ee641.sharedAddresses), ← List.flatMap_append]
  congr 2
  have h1 : List.range' 0 (i + 1) ++ List.range' (0 + (i + 1)) (n - (i + 1)) = List.range' 0 (i + 1 + (n - (i + 1))) :=
    List.range'_append_1
  rw [Nat.zero_add, show i + 1 + (n - (i + 1)) = n by omega] at h1
  rw [List.range_eq_range', List.range_eq_range', h1]

theorem readAddresses_last (i : Nat) : ∃ p, Ee641.readAddresses (i + 1) = p ++ [0x25C0 + i] :=
  ⟨Ee641.scalarAddresses ++ Ee641.sharedAddresses ++ ((List.range i).flatMap Ee641.pixelAddresses ++
    [0x2440 + i, 0x2680 + i, 0x2500 + i]), by
    unfold Ee641.readAddresses
    rw [List.range_succ, List.flatMap_append, List.append_assoc _ _ [0x25C0 + i], List.append_assoc _ _ [0x25C0 + i]]
    rfl⟩

theorem readAddresses_head (n : Nat) : ∃ q, Ee641.readAddresses n = Ee641.scalarAddresses ++ 0x2410 :: q :=
  ⟨[0x2411, 0x2412] ++ List.range' 0x2415 13 ++ (List.range n).flatMap Ee641.pixelAddresses, by
    unfold Ee641.readAddresses Ee641.sharedAddresses
    rw [List.append_assoc]
    rfl⟩

theorem examined_nodup (n : Nat) : (Ee641.examined n).Nodup := by
  unfold Ee641.examined
  split
  · exact List.nodup_range'
  · have hk : min 192 ((n - 1280) / 2) ≤ 192 := Nat.min_le_left _ _
    generalize min 192 ((n - 1280) / 2) = k at hk
    rcases Nat.lt_or_ge k 192 with h | h
    · cases k with
      | zero => decide +kernel
      | succ k =>
        obtain ⟨q, hq⟩ := readAddresses_split (n := 192) (i := k) (by omega)
        have := readAddresses_nodup
        rw [hq] at this
        exact (List.nodup_append.1 this).1
    · rw [show k = 192 by omega]; exact readAddresses_nodup

theorem known_pixels {data : List Byte} {D : Nat → BitVec 11} {before : List Nat}
    (hD : Ee641.Holds data D before) {b : Nat} (hb : b ∈ before) (h : 0x2400 ≤ b) :
    bad (eepromWord data b) = false ∧ corrected data b = Ee641.widen D b := by
  have hv := ((C04_decoder_characterisation (eepromWord data b)).1 _).2 ⟨D b, rfl, hD b hb⟩
  have hb' : bad (eepromWord data b) = false := by unfold bad; rw [hv]; rfl
  refine ⟨hb', ?_⟩
  obtain ⟨k, rfl⟩ := Nat.exists_eq_add_of_le h
  rw [eepromWord_eq] at hv hb'
  have := corrected_eq hb'
  rw [hv] at this
  injection this with this
  exact this.symm

theorem known_exp {W W' : Nat → Word} (h : W 0x2410 = W' 0x2410) : Ee641.offsetExp W = Ee641.offsetExp W' := by
  unfold Ee641.offsetExp; rw [h]

theorem known_fits {W W' : Nat → Word} {i : Nat} (h : ∀ a ∈ Ee641.readAddresses (i + 1), W a = W' a) :
    Pixel641Fits W i ↔ Pixel641Fits W' i := by
  have h0 : W 0x2410 = W' 0x2410 := h _ (mem_shared (k := 16) (Or.inl (by omega)))
  have h1 : W 0x2411 = W' 0x2411 := h _ (mem_shared (k := 17) (Or.inl (by omega)))
  have h2 : W 0x2412 = W' 0x2412 := h _ (mem_shared (k := 18) (Or.inl (by omega)))
  have hp : ∀ a ∈ Ee641.pixelAddresses i, W a = W' a := fun a ha => h a (by
    unfold Ee641.readAddresses
    exact List.mem_append_right _ (List.mem_flatMap.2 ⟨i, List.mem_range.2 (by omega), ha⟩))
  have ho : ∀ s, Ee641.offsetRaw W s i = Ee641.offsetRaw W' s i := by
    intro s
    unfold Ee641.offsetRaw
    cases s
    · simp only; rw [hp _ (by unfold Ee641.pixelAddresses; simp)]
    · simp only; rw [hp _ (by unfold Ee641.pixelAddresses; simp)]
  have hf : Ee641.isFailed W i = Ee641.isFailed W' i := by
    unfold Ee641.isFailed
    refine decide_eq_decide.2 ⟨fun g a ha => ?_, fun g a ha => ?_⟩
    · rw [← hp a ha]; exact g a ha
    · rw [hp a ha]; exact g a ha
  have ha : Ee641.offsetAverage W = Ee641.offsetAverage W' := by
    unfold Ee641.offsetAverage Ee641.combined
    rw [h1, show (0x2411 + 1 : Nat) = 0x2412 from rfl, h2]
  unfold Pixel641Fits
  rw [known_exp h0, hf, ha]
  simp only [ho]

/-- How decoding ends when the words at `before` can be corrected, and the next one, if there is one, cannot. -/
theorem decoding_ends (m : Mode) {data : List Byte} {before rest : List Nat} {D : Nat → BitVec 11}
    (he : Ee641.examined data.length = before ++ rest)
    (hr : ∀ a after, rest = a :: after → Ee641.Uncorrectable (eepromWord data a))
    (hD : Ee641.Holds data D before) :
    (m = .wrapping ∨ Ee641.KnownFit (Ee641.widen D) before →
      Outcome False ((Ee641.examined data.length).map (eepromWord data)) (Mlx90641.fromData (F := F) m data)
        (lengthOutcome data.length)) ∧
    (m = .checked → ¬ Ee641.KnownFit (Ee641.widen D) before → Mlx90641.fromData (F := F) m data = .panic) := by
  have hpre : ∀ p q, Ee641.examined data.length = p ++ q → (∀ a ∈ p, bad (eepromWord data a) = false) →
      ∀ a ∈ p, a ∈ before := by
    intro p q hpq hg
    refine good_prefix hpq he fun a after hra hap => ?_
    have h1 := (bad_iff _).2 (hr a after hra)
    rw [hg a hap] at h1
    cases h1
  have hlong : 128 ≤ data.length → Ee641.examined data.length = Ee641.readAddresses (pixelCount data) := by
    intro h; unfold Ee641.examined pixelCount; rw [if_neg (by omega)]
  have hge : ∀ a ∈ Ee641.examined data.length, 0x2400 ≤ a := by
    intro a ha
    unfold Ee641.examined at ha
    split at ha
    · have := List.mem_range'_1.1 ha; omega
    · have hk : min 192 ((data.length - 1280) / 2) ≤ 192 := Nat.min_le_left _ _
      generalize min 192 ((data.length - 1280) / 2) = k at hk ha
      have : a ∈ Ee641.readAddresses 192 := by
        unfold Ee641.readAddresses at ha ⊢
        rcases List.mem_append.1 ha with ha | ha
        · exact List.mem_append_left _ ha
        · obtain ⟨i, hi, ha⟩ := List.mem_flatMap.1 ha
          exact List.mem_append_right _ (List.mem_flatMap.2 ⟨i, List.mem_range.2 (by have := List.mem_range.1 hi; omega), ha⟩)
      have := (readAddresses_bounds this).1
      omega
  have hsub : ∀ a ∈ before, a ∈ Ee641.examined data.length := fun a ha => by rw [he]; exact List.mem_append_left _ ha
  have hkn : ∀ a ∈ before, bad (eepromWord data a) = false ∧ corrected data a = Ee641.widen D a :=
    fun a ha => known_pixels hD ha (hge a (hsub a ha))
  have hcount : pixelCount data ≤ 192 := by unfold pixelCount; exact Nat.min_le_left _ _
  have hcl : ∀ i, i < pixelCount data → 128 ≤ data.length := by intro i hi; unfold pixelCount at hi; omega
  refine ⟨fun hfit => ?_, fun hm hn => ?_⟩
  · refine fromData_outcome (fun hl hg hm hx => ?_) (fun i hi hg hm hx => ?_)
    · have hfit := hfit.resolve_left (by rw [hm]; exact nofun)
      obtain ⟨q, hq⟩ := readAddresses_head (pixelCount data)
      have hin := hpre (Ee641.scalarAddresses ++ [0x2410]) q (by rw [hlong hl, hq]; simp) hg 0x2410 (by simp)
      refine hx ?_
      rw [known_exp (hkn _ hin).2]
      exact hfit.1 hin
    · have hfit := hfit.resolve_left (by rw [hm]; exact nofun)
      obtain ⟨q, hq⟩ := readAddresses_split hi
      have hin := hpre (Ee641.readAddresses (i + 1)) q (by rw [hlong (hcl i hi), hq]) hg
      refine hx ((known_fits fun a ha => (hkn a (hin a ha)).2).2 ?_)
      refine hfit.2 i (by omega) fun a ha => hin a ?_
      unfold Ee641.readAddresses
      exact List.mem_append_right _ (List.mem_flatMap.2 ⟨i, List.mem_range.2 (by omega), ha⟩)
  · subst hm
    by_cases hs : 0x2410 ∈ before → Ee641.offsetExp (Ee641.widen D) ≤ 14
    · have h2 : ¬ ∀ i < 192, (∀ a ∈ Ee641.pixelAddresses i, a ∈ before) → Pixel641Fits (Ee641.widen D) i :=
        fun h => hn ⟨hs, h⟩
      simp only [not_forall] at h2
      obtain ⟨i, hi, hin, hx⟩ := h2
      have h128 : 128 ≤ data.length := by
        by_contra hl
        have := hsub _ (hin (0x25C0 + i) (by unfold Ee641.pixelAddresses; simp))
        unfold Ee641.examined at this
        rw [if_pos (by omega), List.mem_range'_1] at this
        omega
      have hic : i < pixelCount data := by
        have := hsub _ (hin (0x2440 + i) (by unfold Ee641.pixelAddresses; simp))
        rw [hlong h128] at this
        unfold Ee641.readAddresses Ee641.scalarAddresses Ee641.sharedAddresses at this
        rw [List.mem_append, List.mem_append, List.mem_append, List.mem_range'_1, List.mem_range'_1, List.mem_flatMap] at this
        rcases this with (h | h | h) | ⟨j, hj, h⟩
        · omega
        · simp only [List.mem_cons, List.not_mem_nil, or_false] at h; omega
        · omega
        · have hj := List.mem_range.1 hj
          unfold Ee641.pixelAddresses at h
          simp only [List.mem_cons, List.not_mem_nil, or_false] at h; omega
      obtain ⟨q, hq⟩ := readAddresses_split hic
      obtain ⟨p, hp⟩ := readAddresses_last i
      have hlast : 0x25C0 + i ∈ before := hin _ (by unfold Ee641.pixelAddresses; simp)
      have hall : ∀ a ∈ Ee641.readAddresses (i + 1), a ∈ before := by
        intro a ha
        rw [hp] at ha
        rcases List.mem_append.1 ha with ha | ha
        · refine prefix_mem (examined_nodup data.length) (p := p) (q := q) ?_ he hlast a ha
          rw [hlong h128, hq, hp, List.append_assoc]; rfl
        · rw [List.mem_singleton.1 ha]; exact hlast
      exact fromData_overflow_pixel hic (fun a ha => (hkn a (hall a ha)).1)
        fun h => hx ((known_fits fun a ha => (hkn a (hall a ha)).2).1 h)
    · simp only [Classical.not_imp] at hs
      obtain ⟨hin, hx⟩ := hs
      have h128 : 128 ≤ data.length := by
        by_contra hl
        have := hsub _ hin
        unfold Ee641.examined at this
        rw [if_pos (by omega), List.mem_range'_1] at this
        omega
      obtain ⟨q, hq⟩ := readAddresses_head (pixelCount data)
      have hall : ∀ a ∈ Ee641.scalarAddresses ++ [0x2410], a ∈ before := by
        intro a ha
        rcases List.mem_append.1 ha with ha | ha
        · exact prefix_mem (examined_nodup data.length) (p := Ee641.scalarAddresses) (q := q)
            (by rw [hlong h128, hq]) he hin a ha
        · rw [List.mem_singleton.1 ha]; exact hin
      refine fromData_overflow_scale h128 (fun a ha => (hkn a (hall a ha)).1) ?_
      rw [known_exp (hkn _ hin).2]
      exact hx

/-- Correctable words hold values. -/
theorem holds_of_correctable {data : List Byte} {addresses : List Nat}
    (h : ∀ a ∈ addresses, ¬ Ee641.Uncorrectable (eepromWord data a)) : ∃ D, Ee641.Holds data D addresses := by
  have hd : ∀ a, ∃ d : BitVec 11, a ∈ addresses → WithinOneBit (eepromWord data a) (codeword d) := by
    intro a
    by_cases ha : a ∈ addresses
    · have := h a ha
      unfold Ee641.Uncorrectable at this
      obtain ⟨d, hd⟩ := not_forall.1 this
      exact ⟨d, fun _ => not_not.1 hd⟩
    · exact ⟨0, fun h => absurd h ha⟩
  choose D hD using hd
  exact ⟨D, fun a ha => hD a ha⟩

theorem correctable_of_holds {data : List Byte} {addresses : List Nat} {D : Nat → BitVec 11}
    (h : Ee641.Holds data D addresses) : ∀ a ∈ addresses, ¬ Ee641.Uncorrectable (eepromWord data a) :=
  fun a ha hu => hu _ (h a ha)

/-- **C32.** What the length of the dump decides, when the words it contains hold the values `D` (each with at most one
wrong bit): below 1280 bytes a panic, from there to 1663 bytes an error, and from 1664 on a calibration; except that a
checked build panics exactly when a computation of offsets from the words contained does not fit. Dumps below 1664
bytes are never accepted, correctable or not, and what follows the first 1664 bytes is ignored. -/
theorem C32_dump_length (m : Mode) (data : List Byte) :
    (∀ D, Ee641.Holds data D (Ee641.examined data.length) →
      let fits := m = .wrapping ∨ Ee641.KnownFit (Ee641.widen D) (Ee641.examined data.length)
      (data.length < 1280 → Mlx90641.fromData (F := F) m data = .panic) ∧
      (1280 ≤ data.length → data.length < 1664 → fits →
        Mlx90641.fromData (F := F) m data = .err (.other arrayVecMessage)) ∧
      (1664 ≤ data.length → fits → ∃ c, Mlx90641.fromData (F := F) m data = .ok c) ∧
      (¬ fits → Mlx90641.fromData (F := F) m data = .panic)) ∧
    (∀ c, Mlx90641.fromData (F := F) m data = .ok c → 1664 ≤ data.length) ∧
    (1664 ≤ data.length → Mlx90641.fromData (F := F) m data = Mlx90641.fromData m (data.take 1664)) := by
  refine ⟨fun D hD => ?_, fun c hc => (accepted641 hc).1, fun hl => ?_⟩
  · have hends := decoding_ends (F := F) m (before := Ee641.examined data.length) (rest := []) (by simp)
      (fun _ _ h => nomatch h) hD
    have hnone := find_none (correctable_of_holds hD)
    intro fits
    have hnot : ¬ fits → Mlx90641.fromData (F := F) m data = .panic := by
      intro hn
      cases m with
      | wrapping => exact absurd (Or.inl rfl) hn
      | checked => exact hends.2 rfl fun h => hn (Or.inr h)
    have hout : fits → lengthOutcome data.length (Mlx90641.fromData (F := F) m data) := by
      intro hf
      have := hends.1 hf
      unfold Outcome at this
      rw [hnone] at this
      exact this.resolve_right fun h => h.1
    refine ⟨fun h1 => ?_, fun h1 h2 hf => ?_, fun h1 hf => ?_, hnot⟩
    · by_cases hf : fits
      · have := hout hf
        unfold lengthOutcome at this
        rwa [if_pos h1] at this
      · exact hnot hf
    · have := hout hf
      unfold lengthOutcome at this
      rwa [if_neg (by omega), if_pos h2] at this
    · have := hout hf
      unfold lengthOutcome at this
      rwa [if_neg (by omega), if_neg (by omega)] at this
  · refine fromData641_congr ⟨hl, by rw [List.length_take]; omega, fun k _ hk _ _ => ?_⟩
    have := eepromWord_congr (data := data) (data' := data.take 1664) (by rw [List.take_take, Nat.min_self]) k hk
    rwa [eepromWord_eq, eepromWord_eq] at this

/-- **C33.** Two full dumps that hold the same values give the same result, whichever bit of each word is wrong. -/
theorem C33_one_bit_per_word (m : Mode) (data data' : List Byte) (D : Nat → BitVec 11) (h : 1664 ≤ data.length)
    (h' : 1664 ≤ data'.length) (hD : Ee641.Holds data D (Ee641.readAddresses 192))
    (hD' : Ee641.Holds data' D (Ee641.readAddresses 192)) :
    Mlx90641.fromData (F := F) m data = Mlx90641.fromData m data' := by
  rw [fromData641_full m h (decoded_of_holds hD), fromData641_full m h' (decoded_of_holds hD')]

/-- **C34.** For dumps of any length: when a word is decoded that cannot be corrected, and the words decoded before it
hold the values `D`, that word is reported; except that a checked build panics exactly when a computation of offsets
from the earlier words does not fit. If any decoded word cannot be corrected there is such a first one, and the dump
is never accepted. All 814 relevant words of a full dump are decoded. -/
theorem C34_uncorrectable_reported (m : Mode) (data : List Byte) :
    (∀ before a after D, Ee641.examined data.length = before ++ a :: after →
      Ee641.Holds data D before → Ee641.Uncorrectable (eepromWord data a) →
      let fits := m = .wrapping ∨ Ee641.KnownFit (Ee641.widen D) before
      (fits → Mlx90641.fromData (F := F) m data = .err (.checksum (eepromWord data a))) ∧
      (¬ fits → Mlx90641.fromData (F := F) m data = .panic)) ∧
    (∀ a ∈ Ee641.examined data.length, Ee641.Uncorrectable (eepromWord data a) →
      (∀ c, Mlx90641.fromData (F := F) m data ≠ .ok c) ∧
      ∃ before b after D, Ee641.examined data.length = before ++ b :: after ∧ Ee641.Holds data D before ∧
        Ee641.Uncorrectable (eepromWord data b)) ∧
    (1664 ≤ data.length → Ee641.examined data.length = Ee641.readAddresses 192) := by
  have first : ∀ before a after D, Ee641.examined data.length = before ++ a :: after →
      Ee641.Holds data D before → Ee641.Uncorrectable (eepromWord data a) →
      let fits := m = .wrapping ∨ Ee641.KnownFit (Ee641.widen D) before
      (fits → Mlx90641.fromData (F := F) m data = .err (.checksum (eepromWord data a))) ∧
      (¬ fits → Mlx90641.fromData (F := F) m data = .panic) := by
    intro before a after D he hD hu fits
    have hends := decoding_ends (F := F) m he (fun a' after' h => by
      have h1 : a = a' := (List.cons.inj h).1
      subst h1; exact hu) hD
    refine ⟨fun hf => ?_, fun hn => ?_⟩
    · have := hends.1 hf
      unfold Outcome at this
      rw [find_first ⟨before, after, he, hu, correctable_of_holds hD⟩] at this
      exact this.resolve_right fun h => h.1
    · cases m with
      | wrapping => exact absurd (Or.inl rfl) hn
      | checked => exact hends.2 rfl fun h => hn (Or.inr h)
  refine ⟨first, fun a ha hu => ?_, fun h => ?_⟩
  · obtain ⟨b, before, after, he, hb, hg⟩ := find_first_of_mem ha hu
    obtain ⟨D, hD⟩ := holds_of_correctable hg
    refine ⟨fun c hc => ?_, before, b, after, D, he, hD, hb⟩
    have := first before b after D he hD hb
    by_cases hf : m = .wrapping ∨ Ee641.KnownFit (Ee641.widen D) before
    · rw [this.1 hf] at hc; cases hc
    · rw [this.2 hf] at hc; cases hc
  · unfold Ee641.examined
    rw [if_neg (by omega), Nat.min_eq_left (by omega)]

/-- **C38 (MLX90641).** Neither the first sixteen words, nor the reserved words 0x2413 and 0x2414, nor anything beyond
the EEPROM influences the result, be it a calibration, an error or a panic. -/
theorem C38_irrelevant_words_641 (m : Mode) (data data' : List Byte) (h : 1664 ≤ data.length) (h' : 1664 ≤ data'.length)
    (he : ∀ a, 0x2410 ≤ a → a ≤ 0x273F → a ≠ 0x2413 → a ≠ 0x2414 → eepromWord data a = eepromWord data' a) :
    Mlx90641.fromData (F := F) m data = Mlx90641.fromData m data' := by
  refine fromData641_congr ⟨h, h', fun k h1 h2 h3 h4 => ?_⟩
  rw [← eepromWord_eq, ← eepromWord_eq]
  exact he _ (by omega) (by omega) (by omega) (by omega)

/-! ### Examples -/

/-- The values of the example image. -/
def values641 (a : Nat) : BitVec 11 := BitVec.ofNat 11 (words641 (a - 0x2400))

theorem example641_holds : Ee641.Holds example641 values641 (Ee641.readAddresses 192) := by
  have key : ∀ a ∈ Ee641.readAddresses 192,
      WithinOneBit (BitVec.ofNat 16 (words641 (a - 0x2400))) (codeword (values641 a)) := by decide +kernel
  intro a ha
  obtain ⟨h1, h2, _⟩ := readAddresses_bounds ha
  have := eepromWord_dump words641 (a - 0x2400) (by omega)
  rw [show 0x2400 + (a - 0x2400) = a by omega] at this
  show WithinOneBit (eepromWord (dump words641) a) _
  rw [this]
  exact key a ha


instance (W : Nat → Word) : Decidable (Ee641.OffsetsFit W) :=
  decidable_of_iff (Ee641.offsetExp W ≤ 14 ∧ ∀ i < 192, Ee641.isFailed W i = false →
      (Fits16 (Ee641.offsetRaw W .zero i * 2 ^ Ee641.offsetExp W) ∧
        Fits16 (Ee641.offsetAverage W + Ee641.offsetRaw W .zero i * 2 ^ Ee641.offsetExp W)) ∧
      (Fits16 (Ee641.offsetRaw W .one i * 2 ^ Ee641.offsetExp W) ∧
        Fits16 (Ee641.offsetAverage W + Ee641.offsetRaw W .one i * 2 ^ Ee641.offsetExp W)))
    ⟨fun ⟨h1, h2⟩ => ⟨h1, fun i hi hf s => by cases s; exacts [(h2 i hi hf).1, (h2 i hi hf).2]⟩,
      fun ⟨h1, h2⟩ => ⟨h1, fun i hi hf => ⟨h2 i hi hf .zero, h2 i hi hf .one⟩⟩⟩

theorem example641_fits : Ee641.OffsetsFit (Ee641.widen values641) := by decide +kernel

theorem example641_length : example641.length = 1664 := by unfold example641; rw [dump_length]

/-- The example image is accepted by both builds. -/
theorem example641_accepted (m : Mode) : ∃ c, Mlx90641.fromData (F := F) m example641 = .ok c :=
  ⟨_, by rw [fromData641_full m (by rw [example641_length]) (decoded_of_holds example641_holds),
    onlyIf_pos (Or.inr example641_fits)]⟩

/-- The beginning of a dump holds the same words. -/
theorem eepromWord_take {data : List Byte} {n a : Nat} (h : 2 * (a - 0x2400) + 2 ≤ n) :
    eepromWord (data.take n) a = eepromWord data a := by
  unfold eepromWord
  generalize 2 * (a - 0x2400) = i at h
  rw [List.getD_eq_getElem?_getD, List.getD_eq_getElem?_getD, List.getElem?_take_of_lt (by omega),
    List.getElem?_take_of_lt (by omega), List.getD_eq_getElem?_getD, List.getD_eq_getElem?_getD]

/-- The first 1300 bytes of the example image contain the words of ten pixels, and are refused by both builds. -/
example (m : Mode) : Ee641.examined (example641.take 1300).length = Ee641.readAddresses 10 ∧
    Mlx90641.fromData (F := F) m (example641.take 1300) = .err (.other arrayVecMessage) := by
  have hl : (example641.take 1300).length = 1300 := by rw [List.length_take, example641_length]; rfl
  have he : Ee641.examined (example641.take 1300).length = Ee641.readAddresses 10 := by
    rw [hl]; unfold Ee641.examined; rw [if_neg (by decide), show min 192 ((1300 - 1280) / 2) = 10 by decide]
  have hb : ∀ a ∈ Ee641.readAddresses 10, 2 * (a - 0x2400) + 2 ≤ 1300 ∧ a ∈ Ee641.readAddresses 192 := by decide +kernel
  have hD : Ee641.Holds (example641.take 1300) values641 (Ee641.examined (example641.take 1300).length) := by
    rw [he]
    intro a ha
    rw [eepromWord_take (hb a ha).1]
    exact example641_holds a (hb a ha).2
  exact ⟨he, ((C32_dump_length (F := F) m _).1 values641 hD).2.1 (by rw [hl]; decide) (by rw [hl]; decide)
    (Or.inr ⟨fun _ => example641_fits.1, fun i hi _ => example641_fits.2 i hi⟩)⟩

/-- The example image with wrong bits in two words, one in the gain (0x2424), one in a sensitivity. -/
def noisy641 : List Byte := dump fun k => if k = 36 then 0xf117 else if k = 300 then 0xfffe else words641 k

theorem holds_dump {words : Nat → Nat} {D : Nat → BitVec 11} (h : ∀ a ∈ Ee641.readAddresses 192,
    WithinOneBit (BitVec.ofNat 16 (words (a - 0x2400))) (codeword (D a))) :
    Ee641.Holds (dump words) D (Ee641.readAddresses 192) := by
  intro a ha
  obtain ⟨h1, h2, _⟩ := readAddresses_bounds ha
  have := eepromWord_dump words (a - 0x2400) (by omega)
  rw [show 0x2400 + (a - 0x2400) = a by omega] at this
  rw [this]
  exact h a ha

/-- The hypotheses of `C33_one_bit_per_word` with dumps that really differ. -/
example : Ee641.Holds noisy641 values641 (Ee641.readAddresses 192) ∧
    eepromWord noisy641 0x2424 ≠ eepromWord example641 0x2424 := by
  refine ⟨holds_dump (by decide +kernel), ?_⟩
  have h1 : eepromWord noisy641 0x2424 = 0xf117#16 := (eepromWord_dump _ 36 (by decide)).trans (by decide)
  have h2 : eepromWord example641 0x2424 = 0xf137#16 := (eepromWord_dump _ 36 (by decide)).trans (by decide)
  rw [h1, h2]; decide

/-- An image with two wrong bits in the word of the gain, and its fate. -/
def broken641 : List Byte := dump fun k => if k = 36 then 0xf117 ^^^ 1 else words641 k

theorem uncorrectable_iff (w : Word) : Ee641.Uncorrectable w ↔ Hamming.validateChecksum w = .err (.checksum w) := by
  constructor
  · intro h; exact validate_bad ((bad_iff w).2 h)
  · intro h d hd
    have := ((C04_decoder_characterisation w).1 _).2 ⟨d, rfl, hd⟩
    rw [h] at this; cases this

theorem broken641_examined : Ee641.examined broken641.length = [0x2422, 0x2423] ++ 0x2424 :: (Ee641.readAddresses 192).drop 3 := by
  rw [(C34_uncorrectable_reported (F := ℝ) .wrapping broken641).2.2 (by unfold broken641; rw [dump_length])]
  decide +kernel

theorem broken641_word (k : Nat) (hk : k < 832) : eepromWord broken641 (0x2400 + k) =
    BitVec.ofNat 16 (if k = 36 then 0xf117 ^^^ 1 else words641 k) := eepromWord_dump _ k hk

/-- Both builds report the word. -/
example (m : Mode) : Mlx90641.fromData (F := F) m broken641 = .err (.checksum 0xf116#16) := by
  have hD : Ee641.Holds broken641 values641 [0x2422, 0x2423] := by
    intro b hb
    simp only [List.mem_cons, List.not_mem_nil, or_false] at hb
    rcases hb with rfl | rfl
    · rw [show 0x2422 = 0x2400 + 34 from rfl, broken641_word 34 (by decide)]; decide +kernel
    · rw [show 0x2423 = 0x2400 + 35 from rfl, broken641_word 35 (by decide)]; decide +kernel
  have hu : Ee641.Uncorrectable (eepromWord broken641 0x2424) := by
    rw [uncorrectable_iff, show 0x2424 = 0x2400 + 36 from rfl, broken641_word 36 (by decide)]; decide +kernel
  have hfit : Ee641.KnownFit (Ee641.widen values641) [0x2422, 0x2423] := by
    refine ⟨by decide, fun i hi h => ?_⟩
    have := h (0x2440 + i) (by unfold Ee641.pixelAddresses; simp)
    simp at this
    omega
  have := ((C34_uncorrectable_reported (F := F) m broken641).1 _ _ _ _ broken641_examined hD hu).1 (Or.inr hfit)
  rw [this, show 0x2424 = 0x2400 + 36 from rfl, broken641_word 36 (by decide)]
  rfl

/-- An image of which the exponent of the offset scale (0x2410) is 15 and a word decoded later (0x2411) cannot be
corrected: a release build reports that word, a checked build panics because of the exponent. -/
def steep641 : List Byte := dump fun k => if k = 16 then 0x01e0 else if k = 17 then 0x0003 else words641 k
def steepValues641 (a : Nat) : BitVec 11 := if a = 0x2410 then 0x1e0 else values641 a

example : Mlx90641.fromData (F := F) .wrapping steep641 = .err (.checksum 0x0003#16) ∧
    Mlx90641.fromData (F := F) .checked steep641 = .panic := by
  have hw : ∀ k, k < 832 → eepromWord steep641 (0x2400 + k) =
      BitVec.ofNat 16 (if k = 16 then 0x01e0 else if k = 17 then 0x0003 else words641 k) := fun k hk => eepromWord_dump _ k hk
  have he : Ee641.examined steep641.length = (Ee641.readAddresses 192).take 31 ++ 0x2411 :: (Ee641.readAddresses 192).drop 32 := by
    rw [(C34_uncorrectable_reported (F := ℝ) .wrapping steep641).2.2 (by unfold steep641; rw [dump_length])]
    decide +kernel
  have key : ∀ a ∈ (Ee641.readAddresses 192).take 31, 0x2400 ≤ a ∧ a < 0x2740 ∧ WithinOneBit
      (BitVec.ofNat 16 (if a - 0x2400 = 16 then 0x01e0 else if a - 0x2400 = 17 then 0x0003 else words641 (a - 0x2400)))
      (codeword (steepValues641 a)) := by decide +kernel
  have hD : Ee641.Holds steep641 steepValues641 ((Ee641.readAddresses 192).take 31) := by
    intro a ha
    obtain ⟨h1, h2, h3⟩ := key a ha
    have := hw (a - 0x2400) (by omega)
    rw [show 0x2400 + (a - 0x2400) = a by omega] at this
    rw [this]
    exact h3
  have e17 : eepromWord steep641 0x2411 = 0x0003#16 := by
    rw [show 0x2411 = 0x2400 + 17 from rfl, hw 17 (by decide)]; rfl
  have hu : Ee641.Uncorrectable (eepromWord steep641 0x2411) := by
    rw [uncorrectable_iff, e17]; decide +kernel
  have hnot : ¬ Ee641.KnownFit (Ee641.widen steepValues641) ((Ee641.readAddresses 192).take 31) := fun h =>
    absurd (h.1 (by decide +kernel)) (by decide +kernel)
  have first := fun m => (C34_uncorrectable_reported (F := F) m steep641).1 _ _ _ _ he hD hu
  rw [← e17]
  exact ⟨(first .wrapping).1 (Or.inl rfl), (first .checked).2 fun h => h.elim (fun h => nomatch h) hnot⟩

/-! ### Parameters -/

theorem widen_toInt (D : Nat → BitVec 11) (a : Nat) : signedAt (Ee641.widen D a) 0 11 = (D a).toInt := by
  rw [signedAt_zero, Ee641.widen, BitVec.toNat_setWidth, Nat.mod_eq_of_lt (by have := (D a).isLt; omega),
    BitVec.toInt_eq_toNat_bmod]

theorem widen_toNat (D : Nat → BitVec 11) (a : Nat) : (Ee641.widen D a).toNat = (D a).toNat := by
  rw [Ee641.widen, BitVec.toNat_setWidth, Nat.mod_eq_of_lt (by have := (D a).isLt; omega)]

theorem toInt11_range (x : BitVec 11) : -1024 ≤ x.toInt ∧ x.toInt ≤ 1023 := by
  have := x.isLt
  rw [BitVec.toInt_eq_toNat_bmod, Int.bmod_def]; split <;> omega

/-- A sixteen-bit value stored in two words, the second below 32 as documented. -/
theorem combined_toNat {W : Nat → Word} {a : Nat} (h : (W a).toNat < 2048) (h' : (W (a + 1)).toNat < 32) :
    (Ee641.combined W a).toNat = 32 * (W a).toNat + (W (a + 1)).toNat := by
  unfold Ee641.combined
  rw [BitVec.toNat_or, BitVec.toNat_shiftLeft, Nat.mod_eq_of_lt (by rw [Nat.shiftLeft_eq]; omega)]
  have h32 : (W (a + 1)).toNat < 2 ^ 5 := h'
  rw [← Nat.shiftLeft_add_eq_or_of_lt h32, Nat.shiftLeft_eq]; omega

theorem scalars641 (D : Nat → BitVec 11) :
    let W := Ee641.widen D
    let k := (decode641 (F := ℝ) W).toCalib
    k.kSTa = ((D 0x2422).toInt : ℝ) / 2 ^ 15 ∧
    k.emissivity = some (((D 0x2423).toInt : ℝ) / 2 ^ 9) ∧
    ((D 0x2425).toNat < 32 → k.gain = 32 * ((D 0x2424).toNat : ℝ) + ((D 0x2425).toNat : ℝ)) ∧
    k.vdd25 = (D 0x2426).toInt * 2 ^ 5 ∧
    k.kVdd = (D 0x2427).toInt * 2 ^ 5 ∧
    k.vdd0 = 3.3 ∧
    ((D 0x2429).toNat < 32 → k.vptat25 = 32 * ((D 0x2428).toNat : ℝ) + ((D 0x2429).toNat : ℝ)) ∧
    k.kTptat = ((D 0x242A).toInt : ℝ) / 2 ^ 3 ∧
    k.kVptat = ((D 0x242B).toInt : ℝ) / 2 ^ 12 ∧
    k.alphaPtat = ((D 0x242C).toNat : ℝ) / 2 ^ 7 ∧
    (∀ s, k.alphaCp s = ((D 0x242D).toNat : ℝ) / 2 ^ (D 0x242E).toNat) ∧
    ((D 0x2430).toNat < 32 → ∀ s, k.offsetRefCp s = wrap16 (32 * ((D 0x242F).toNat : Int) + ((D 0x2430).toNat : Int))) ∧
    (∀ s, k.kTaCp s = (signedAt (W 0x2431) 0 6 : ℝ) / 2 ^ bitsAt (W 0x2431) 6 5) ∧
    (∀ s, k.kVCp s = (signedAt (W 0x2432) 0 6 : ℝ) / 2 ^ bitsAt (W 0x2432) 6 5) ∧
    k.resolution = CtrlField.resolution.decode (bitsAt (W 0x2433) 9 2) ∧
    k.tgc = some ((signedAt (W 0x2433) 0 9 : ℝ) / 2 ^ 6) ∧
    k.cornerTemps = [-40, -20, 0, 80, 120, ((D 0x243A).toNat : Int), ((D 0x243C).toNat : Int), ((D 0x243E).toNat : Int)] ∧
    k.kSTo = [0x2435, 0x2436, 0x2437, 0x2438, 0x2439, 0x243B, 0x243D, 0x243F].map
      (fun a => ((D a).toInt : ℝ) / 2 ^ (D 0x2434).toNat) := by
  intro W k
  have hW : ∀ a, signedAt (W a) 0 11 = (D a).toInt := widen_toInt D
  have hN : ∀ a, (W a).toNat = (D a).toNat := widen_toNat D
  have hC : ∀ a, (D (a + 1)).toNat < 32 →
      (Ee641.combined W a).toNat = 32 * (D a).toNat + (D (a + 1)).toNat := by
    intro a h
    rw [combined_toNat (widen_lt D a) (by rw [show (W (a + 1)).toNat = _ from hN _]; exact h), hN, hN]
  have hfit : ∀ x : BitVec 11, wrap16 (x.toInt * 2 ^ 5) = x.toInt * 2 ^ 5 := by
    intro x
    have := toInt11_range x
    apply wrap16_fits
    unfold Fits16; omega
  have hT : ∀ a, (W a).toInt = ((D a).toNat : Int) := by
    intro a
    rw [toInt_of_lt (widen_lt D a)]
    exact congrArg _ (hN a)
  refine ⟨?_, ?_, fun h => ?_, ?_, ?_, ?_, fun h => ?_, ?_, ?_, ?_, fun s => ?_, fun h s => ?_, fun s => ?_, fun s => ?_, ?_, ?_,
    ?_, ?_⟩
  · show ((signedAt (W 0x2422) 0 11 : Int) : ℝ) / exp2 (lit ((15 : Nat) : Rat)) = _
    rw [real_exp2_lit, hW]
  · show some (((signedAt (W 0x2423) 0 11 : Int) : ℝ) / exp2 (lit ((9 : Nat) : Rat))) = _
    rw [real_exp2_lit, hW]
  · show (((Ee641.combined W 0x2424).toNat : Int) : ℝ) = _
    rw [hC _ h]; push_cast; rfl
  · simp only [k, Mlx90641.Calibration.toCalib, decode641, decode641With]
    rw [hW, hfit]
  · simp only [k, Mlx90641.Calibration.toCalib, decode641, decode641With]
    rw [hW, hfit]
  · show (((33 / 10 : Rat)) : ℝ) = 3.3
    norm_num
  · show (((Ee641.combined W 0x2428).toNat : Int) : ℝ) = _
    rw [hC _ h]; push_cast; rfl
  · show ((signedAt (W 0x242A) 0 11 : Int) : ℝ) / ((8 : Rat) : ℝ) = _
    rw [hW]; norm_num
  · show ((signedAt (W 0x242B) 0 11 : Int) : ℝ) / ((4096 : Rat) : ℝ) = _
    rw [hW]; norm_num
  · show (((W 0x242C).toNat : Int) : ℝ) / ((128 : Rat) : ℝ) = _
    rw [hN]; norm_num
  · show (((W 0x242D).toNat : Int) : ℝ) / exp2 (ofInt ((W 0x242E).toNat : Int)) = _
    rw [real_exp2_nat, hN, hN]; norm_num
  · have : k.offsetRefCp s = (Ee641.combined W 0x242F).toInt := rfl
    rw [this, BitVec.toInt_eq_toNat_bmod, hC _ h, wrap16]; push_cast; rfl
  · show ((signedAt (W 0x2431) 0 6 : Int) : ℝ) / exp2 (ofInt (bitsAt (W 0x2431) 6 5 : Nat)) = _
    rw [real_exp2_nat]
  · show ((signedAt (W 0x2432) 0 6 : Int) : ℝ) / exp2 (ofInt (bitsAt (W 0x2432) 6 5 : Nat)) = _
    rw [real_exp2_nat]
  · show CtrlField.resolution.decode (bitsAt (W 0x2433) 9 2) = _
    with_reducible rfl
  · show some (((signedAt (W 0x2433) 0 9 : Int) : ℝ) / ((64 : Rat) : ℝ)) = _
    norm_num
  · show cornerTemps641 W = _
    unfold cornerTemps641
    rw [hT, hT, hT]
  · show kSTo641 W = _
    unfold kSTo641
    simp only [real_exp2_nat, hW, hN]
    rfl

/-- **C35.** Every scalar parameter of an accepted calibration is the datasheet's formula (section 11.2.2 for the
MLX90641) applied to the documented eleven-bit values. Sixteen-bit parameters are stored in two words, the second
holding five bits. -/
theorem C35_scalars_641 (m : Mode) (data : List Byte) (c : Mlx90641.Calibration ℝ)
    (h : Mlx90641.fromData m data = .ok c) :
    (∃ D, Ee641.Holds data D (Ee641.readAddresses 192)) ∧
    ∀ D, Ee641.Holds data D (Ee641.readAddresses 192) →
    let W := Ee641.widen D
    let k := c.toCalib
    k.kSTa = ((D 0x2422).toInt : ℝ) / 2 ^ 15 ∧
    k.emissivity = some (((D 0x2423).toInt : ℝ) / 2 ^ 9) ∧
    ((D 0x2425).toNat < 32 → k.gain = 32 * ((D 0x2424).toNat : ℝ) + ((D 0x2425).toNat : ℝ)) ∧
    k.vdd25 = (D 0x2426).toInt * 2 ^ 5 ∧
    k.kVdd = (D 0x2427).toInt * 2 ^ 5 ∧
    k.vdd0 = 3.3 ∧
    ((D 0x2429).toNat < 32 → k.vptat25 = 32 * ((D 0x2428).toNat : ℝ) + ((D 0x2429).toNat : ℝ)) ∧
    k.kTptat = ((D 0x242A).toInt : ℝ) / 2 ^ 3 ∧
    k.kVptat = ((D 0x242B).toInt : ℝ) / 2 ^ 12 ∧
    k.alphaPtat = ((D 0x242C).toNat : ℝ) / 2 ^ 7 ∧
    (∀ s, k.alphaCp s = ((D 0x242D).toNat : ℝ) / 2 ^ (D 0x242E).toNat) ∧
    ((D 0x2430).toNat < 32 → ∀ s, k.offsetRefCp s = wrap16 (32 * ((D 0x242F).toNat : Int) + ((D 0x2430).toNat : Int))) ∧
    (∀ s, k.kTaCp s = (signedAt (W 0x2431) 0 6 : ℝ) / 2 ^ bitsAt (W 0x2431) 6 5) ∧
    (∀ s, k.kVCp s = (signedAt (W 0x2432) 0 6 : ℝ) / 2 ^ bitsAt (W 0x2432) 6 5) ∧
    k.resolution = CtrlField.resolution.decode (bitsAt (W 0x2433) 9 2) ∧
    k.tgc = some ((signedAt (W 0x2433) 0 9 : ℝ) / 2 ^ 6) ∧
    k.cornerTemps = [-40, -20, 0, 80, 120, ((D 0x243A).toNat : Int), ((D 0x243C).toNat : Int), ((D 0x243E).toNat : Int)] ∧
    k.kSTo = [0x2435, 0x2436, 0x2437, 0x2438, 0x2439, 0x243B, 0x243D, 0x243F].map
      (fun a => ((D a).toInt : ℝ) / 2 ^ (D 0x2434).toNat) := by
  refine ⟨holds_of_accepted h, fun D hD => ?_⟩
  obtain ⟨_, rfl⟩ := decode_of_accepted h hD
  exact scalars641 D

/-- The parameters of the worked example in the datasheet. -/
example (m : Mode) (c : Mlx90641.Calibration ℝ) (h : Mlx90641.fromData m example641 = .ok c) :
    c.toCalib.gain = 9972 ∧ c.toCalib.kVdd = -3136 ∧ c.toCalib.vdd25 = -13568 ∧ c.toCalib.vptat25 = 12280 := by
  obtain ⟨_, _, h1, h2, h3, _, h4, _⟩ := (C35_scalars_641 m example641 c h).2 values641 example641_holds
  rw [h1 (by decide), h2, h3, h4 (by decide)]
  refine ⟨?_, by decide, by decide, ?_⟩
  · have e1 : (values641 0x2424).toNat = 311 := by decide
    have e2 : (values641 0x2425).toNat = 20 := by decide
    rw [e1, e2]; norm_num
  · have e1 : (values641 0x2428).toNat = 383 := by decide
    have e2 : (values641 0x2429).toNat = 24 := by decide
    rw [e1, e2]; norm_num

theorem px641_get {W : Nat → Word} {α : Type} (f : Mlx90641.PixelOut F → α) (i : Nat) (hi : i < 192) :
    ((pixels641 (F := F) W 192).map f)[i]? = some (f (pixel641 W i)) := by
  rw [List.getElem?_map, pixels641_get W hi]; rfl

/-- **C28 (MLX90641).** Every per-pixel sequence of an accepted calibration has 192 items, for every subpage and
access pattern; there are eight temperature ranges. -/
theorem C28_complete_641 (m : Mode) (data : List Byte) (c : Mlx90641.Calibration F)
    (h : Mlx90641.fromData m data = .ok c) :
    c.toCalib.cam.numPixels = 192 ∧ Complete c.toCalib 192 ∧
    c.toCalib.failed.length = 192 ∧ c.toCalib.outlier.length = 192 ∧
    c.toCalib.cornerTemps.length = 8 ∧ c.toCalib.kSTo.length = 8 ∧ c.toCalib.alphaCorrection.length = 8 := by
  obtain ⟨D, hD⟩ := holds_of_accepted h
  obtain ⟨_, rfl⟩ := decode_of_accepted h hD
  have hl : ∀ {α : Type} (f : Mlx90641.PixelOut F → α),
      ((pixels641 (F := F) (Ee641.widen D) 192).map f).length = 192 := by
    intro α f; rw [List.length_map, pixels641_length]
  refine ⟨rfl, ⟨fun s => by cases s <;> exact hl _, fun _ => hl _, fun _ => hl _, fun _ => hl _, fun a => ?_, ?_⟩, hl _, hl _,
    rfl, rfl, ?_⟩
  · show (List.replicate Mlx90641.numPixels none).length = 192
    rw [List.length_replicate]; rfl
  · show 2 < 8; decide
  · show (List.map _ _).length = 8
    rw [List.length_map, List.length_range]

/-- **C29 (MLX90641).** The sensitivity correction of every temperature range: 1 for the basic range (range 2), and
otherwise the documented product along the ranges in between. -/
theorem C29_range_correction_641 (m : Mode) (data : List Byte) (c : Mlx90641.Calibration ℝ)
    (h : Mlx90641.fromData m data = .ok c) :
    let k := c.toCalib
    k.cam.basicRange = 2 ∧ k.alphaCorrection.length = 8 ∧
    ∀ n < 8, k.alphaCorrection[n]? = some (rangeCorrection k.cam.basicRange k.cornerTemps k.kSTo n) := by
  obtain ⟨D, hD⟩ := holds_of_accepted h
  obtain ⟨_, rfl⟩ := decode_of_accepted h hD
  refine ⟨rfl, by show (List.map _ _).length = 8; rw [List.length_map, List.length_range], fun n hn => ?_⟩
  show ((List.range 8).map (corr 2 (cornerTemps641 (Ee641.widen D)) (kSTo641 (Ee641.widen D))))[n]? = _
  rw [List.getElem?_map, List.getElem?_range hn, Option.map_some, corr_real]
  rfl

/-- The offset of a pixel for a subpage. -/
def offsetFor (p : Mlx90641.PixelOut F) : Subpage → Int
  | .zero => p.offset0
  | .one => p.offset1

/-- **C37.** Whether a full dump of correctable words is accepted, and the parameters of every pixel. A release build
accepts every such dump; a checked build panics exactly when an `i16` computation for the offsets does not fit. A
pixel is flagged as failed (and as outlier) exactly when its four words hold zero; then all its parameters are zero.
Otherwise they are the datasheet's formulas, with the offset average of C36 and reduced to 16 bits. -/
theorem C37_pixels_641 (data : List Byte) (h : 1664 ≤ data.length) (D : Nat → BitVec 11)
    (hD : Ee641.Holds data D (Ee641.readAddresses 192)) :
    let W := Ee641.widen D
    (∃ c, Mlx90641.fromData (F := ℝ) .wrapping data = .ok c) ∧
    ((∃ c, Mlx90641.fromData (F := ℝ) .checked data = .ok c) ↔ Ee641.OffsetsFit W) ∧
    (Mlx90641.fromData (F := ℝ) .checked data = .panic ↔ ¬ Ee641.OffsetsFit W) ∧
    ∀ m (c : Mlx90641.Calibration ℝ), Mlx90641.fromData m data = .ok c → ∀ s, ∀ i < 192,
      let k := c.toCalib
      k.failed[i]? = some (Ee641.isFailed W i) ∧ k.outlier[i]? = some (Ee641.isFailed W i) ∧
      (Ee641.isFailed W i = true → (k.offsetRef s)[i]? = some 0 ∧ (k.alpha s)[i]? = some 0 ∧
        (k.kTa s)[i]? = some 0 ∧ (k.kV s)[i]? = some 0) ∧
      (Ee641.isFailed W i = false →
        (k.offsetRef s)[i]? = some (wrap16 (Ee641.offsetAverage W + Ee641.offsetRaw W s i * 2 ^ Ee641.offsetExp W)) ∧
        (m = .checked →
          (k.offsetRef s)[i]? = some (Ee641.offsetAverage W + Ee641.offsetRaw W s i * 2 ^ Ee641.offsetExp W)) ∧
        (k.alpha s)[i]? = some ((Ee641.alphaRaw W i : ℝ) / 2047 *
          (((W (0x241C + Ee641.rowPair i)).toNat : ℝ) / 2 ^ Ee641.referenceExp W (Ee641.rowPair i))) ∧
        (k.kTa s)[i]? = some (((Ee641.kTaRaw W i : ℝ) * 2 ^ bitsAt (W 0x2416) 0 5 + (D 0x2415).toInt) /
          2 ^ bitsAt (W 0x2416) 5 6) ∧
        (k.kV s)[i]? = some (((Ee641.kVRaw W i : ℝ) * 2 ^ bitsAt (W 0x2418) 0 5 + (D 0x2417).toInt) /
          2 ^ bitsAt (W 0x2418) 5 6)) := by
  intro W
  have hfull : ∀ m, Mlx90641.fromData (F := ℝ) m data = onlyIf (m = .wrapping ∨ Ee641.OffsetsFit W) (decode641 W) :=
    fun m => fromData641_full m h (decoded_of_holds hD)
  refine ⟨⟨_, by rw [hfull, onlyIf_pos (Or.inl rfl)]⟩, ⟨fun ⟨c, hc⟩ => ?_, fun hf => ⟨_, by rw [hfull, onlyIf_pos (Or.inr hf)]⟩⟩,
    ⟨fun hp hf => ?_, fun hf => ?_⟩, fun m c hc s i hi => ?_⟩
  · rw [hfull] at hc
    exact (onlyIf_ok hc).1.resolve_left (by decide)
  · rw [hfull, onlyIf_pos (Or.inr hf)] at hp; cases hp
  · rw [hfull, onlyIf_neg fun h => hf (h.resolve_left (by decide))]
  · obtain ⟨hm, rfl⟩ := decode_of_accepted hc hD
    intro k
    have hfl : k.failed[i]? = some (pixel641 W i).failed := px641_get _ i hi
    have hol : k.outlier[i]? = some (pixel641 W i).failed := px641_get _ i hi
    have hal : (k.alpha s)[i]? = some (pixel641 W i).alpha := px641_get _ i hi
    have hkt : (k.kTa s)[i]? = some (pixel641 W i).kTa := px641_get _ i hi
    have hkv : (k.kV s)[i]? = some (pixel641 W i).kV := px641_get _ i hi
    have hof : (k.offsetRef s)[i]? = some (offsetFor (pixel641 (F := ℝ) W i) s) := by
      cases s
      · exact px641_get (F := ℝ) (W := W) (fun p => p.offset0) i hi
      · exact px641_get (F := ℝ) (W := W) (fun p => p.offset1) i hi
    have hfail : (pixel641 (F := ℝ) W i).failed = Ee641.isFailed W i := by
      unfold pixel641
      cases hx : Ee641.isFailed W i
      · rw [if_neg (by decide)]
      · rw [if_pos rfl]
    rw [hfl, hol, hfail, hal, hkt, hkv, hof]
    refine ⟨rfl, rfl, fun hx => ?_, fun hx => ?_⟩
    · unfold pixel641
      rw [if_pos hx]
      have z : (lit 0 : ℝ) = 0 := by show (((0 : Rat) : ℝ)) = 0; norm_num
      simp only [z]
      cases s <;> exact ⟨rfl, trivial, trivial, trivial⟩
    · have hx' : ¬ (Ee641.isFailed W i = true) := by rw [hx]; decide
      have hoff : offsetFor (pixel641 (F := ℝ) W i) s =
          wrap16 (Ee641.offsetAverage W + Ee641.offsetRaw W s i * 2 ^ Ee641.offsetExp W) := by
        unfold pixel641
        rw [if_neg hx']
        cases s <;> simp only [offsetFor]
      rw [hoff]
      refine ⟨rfl, fun hmc => ?_, ?_, ?_, ?_⟩
      · have := (hm.resolve_left (by rw [hmc]; decide)).2 i hi hx s
        rw [wrap16_fits this.2]
      · refine congrArg some ?_
        unfold pixel641
        rw [if_neg hx']
        simp only
        show ((Ee641.alphaRaw W i : Int) : ℝ) / ((2047 : Rat) : ℝ) * ((((W (0x241C + Ee641.rowPair i)).toNat : Int) : ℝ) /
          exp2 (ofInt (Ee641.referenceExp W (Ee641.rowPair i) : Nat))) = _
        rw [real_exp2_nat]; push_cast; rfl
      · refine congrArg some ?_
        unfold pixel641
        rw [if_neg hx']
        simp only
        rw [real_exp2_nat, real_exp2_nat, show signedAt (W 0x2415) 0 11 = (D 0x2415).toInt from widen_toInt D _]
        rfl
      · refine congrArg some ?_
        unfold pixel641
        rw [if_neg hx']
        simp only
        rw [real_exp2_nat, real_exp2_nat, show signedAt (W 0x2417) 0 11 = (D 0x2417).toInt from widen_toInt D _]
        rfl

/-- Both kinds of pixels in the example, with the offset of the worked example. -/
example : let W := Ee641.widen values641
    Ee641.isFailed W 3 = true ∧ Ee641.isFailed W 47 = false ∧
    Ee641.offsetAverage W + Ee641.offsetRaw W .zero 47 * 2 ^ Ee641.offsetExp W = -673 ∧
    Ee641.offsetAverage W + Ee641.offsetRaw W .one 47 * 2 ^ Ee641.offsetExp W = -675 := by decide +kernel

/-- **C36.** The offset average that is used equals the documented 16-bit one exactly when that lies between -1024 and
1023; and the offset of a pixel that is not broken is the documented one (reduced to 16 bits) exactly then. -/
theorem C36_offset_average (m : Mode) (data : List Byte) (c : Mlx90641.Calibration F)
    (h : Mlx90641.fromData m data = .ok c) (D : Nat → BitVec 11) (hD : Ee641.Holds data D (Ee641.readAddresses 192)) :
    let W := Ee641.widen D
    (Ee641.offsetAverage W = Ee641.offsetAverageDoc W ↔
      -1024 ≤ Ee641.offsetAverageDoc W ∧ Ee641.offsetAverageDoc W ≤ 1023) ∧
    ∀ s, ∀ i < 192, Ee641.isFailed W i = false →
      ((c.toCalib.offsetRef s)[i]? =
        some (wrap16 (Ee641.offsetAverageDoc W + Ee641.offsetRaw W s i * 2 ^ Ee641.offsetExp W)) ↔
      -1024 ≤ Ee641.offsetAverageDoc W ∧ Ee641.offsetAverageDoc W ≤ 1023) := by
  intro W
  obtain ⟨_, rfl⟩ := decode_of_accepted h hD
  have havg : Ee641.offsetAverage W = Ee641.offsetAverageDoc W ↔
      -1024 ≤ Ee641.offsetAverageDoc W ∧ Ee641.offsetAverageDoc W ≤ 1023 := by
    unfold Ee641.offsetAverage Ee641.offsetAverageDoc
    rw [signedAt_zero, signedAt_zero]
    have := (Ee641.combined W 0x2411).isLt
    rw [Int.bmod_def, Int.bmod_def]
    constructor
    · intro h
      split at h <;> split at h <;> omega
    · intro h
      split at h <;> split <;> omega
  refine ⟨havg, fun s i hi hf => ?_⟩
  rw [← havg]
  have hx : ¬ (Ee641.isFailed W i = true) := by rw [hf]; decide
  have hof : ((decode641 (F := F) W).toCalib.offsetRef s)[i]? =
      some (wrap16 (Ee641.offsetAverage W + Ee641.offsetRaw W s i * 2 ^ Ee641.offsetExp W)) := by
    cases s
    · refine (px641_get (F := F) (W := W) (fun p => p.offset0) i hi).trans (congrArg some ?_)
      unfold pixel641
      rw [if_neg hx]
    · refine (px641_get (F := F) (W := W) (fun p => p.offset1) i hi).trans (congrArg some ?_)
      unfold pixel641
      rw [if_neg hx]
  rw [hof, Option.some.injEq]
  constructor
  · intro he
    have r1 : -32768 ≤ Ee641.offsetAverage W ∧ Ee641.offsetAverage W ≤ 32767 := by
      unfold Ee641.offsetAverage
      rw [signedAt_zero, Int.bmod_def]; split <;> omega
    have r2 : -32768 ≤ Ee641.offsetAverageDoc W ∧ Ee641.offsetAverageDoc W ≤ 32767 := by
      unfold Ee641.offsetAverageDoc
      rw [signedAt_zero, Int.bmod_def]; split <;> omega
    unfold wrap16 at he
    rw [Int.bmod_eq_bmod_iff_bmod_sub_eq_zero] at he
    rw [show ∀ a b x : Int, a + x - (b + x) = a - b by intros; omega, Int.bmod_def] at he
    split at he <;> omega
  · intro he; rw [he]

/-- An image of which the documented average is 1024, but -1024 is used: the offset of its first pixel is 2048 less
than documented. -/
def average641 : List Byte := dump fun k => if k = 17 then 0xd020 else if k = 18 then 0 else words641 k
def averageValues641 (a : Nat) : BitVec 11 := if a = 0x2411 then 32 else if a = 0x2412 then 0 else values641 a

theorem average641_holds : Ee641.Holds average641 averageValues641 (Ee641.readAddresses 192) :=
  holds_dump (by decide +kernel)

theorem average641_fits : Ee641.OffsetsFit (Ee641.widen averageValues641) := by decide +kernel

example (m : Mode) : ∃ c, Mlx90641.fromData (F := F) m average641 = .ok c :=
  ⟨_, by rw [fromData641_full m (by unfold average641; rw [dump_length]) (decoded_of_holds average641_holds),
    onlyIf_pos (Or.inr average641_fits)]⟩

example : Ee641.offsetAverageDoc (Ee641.widen averageValues641) = 1024 ∧
    Ee641.offsetAverage (Ee641.widen averageValues641) = -1024 ∧
    Ee641.isFailed (Ee641.widen averageValues641) 47 = false := by decide +kernel

end Mlx.Props
