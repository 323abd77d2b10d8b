import Verif.Props.Eeprom641
/-
C65: the flagged pixels of a calibration, as seen through the trait `FlaggedPixels`.
-/
set_option autoImplicit false
set_option linter.unusedSectionVars false
namespace Mlx.Props
open Mlx Mlx.Spec Mlx.Proofs
variable {F : Type} [F32Ops F]

theorem mem_iterFlagged (flags : List Bool) (i : Nat) : i ∈ iterFlagged flags ↔ flags[i]? = some true := by
  unfold iterFlagged
  rw [List.mem_map]
  constructor
  · rintro ⟨⟨b, j⟩, h, rfl⟩
    rw [List.mem_filter] at h
    obtain ⟨h, hb⟩ := h
    simp only at hb
    subst hb
    exact List.mem_zipIdx_iff_getElem?.1 h
  · intro h
    exact ⟨(true, i), List.mem_filter.2 ⟨List.mem_zipIdx_iff_getElem?.2 h, rfl⟩, rfl⟩

theorem iterFlagged_sorted (flags : List Bool) : (iterFlagged flags).Pairwise (· < ·) := by
  unfold iterFlagged
  rw [List.pairwise_map]
  refine List.Pairwise.filter _ ?_
  rw [List.pairwise_iff_getElem]
  intro i j hi hj hij
  rw [List.getElem_zipIdx, List.getElem_zipIdx]
  simpa using hij

/-- **C65 (the trait).** `iter_flagged` yields the indices of the flagged pixels, each of them once and in increasing
order, and nothing else; `any` tells whether it yields anything. -/
theorem C65_flagged_pixels (flags : List Bool) :
    (iterFlagged flags).Pairwise (· < ·) ∧
    (∀ i, i ∈ iterFlagged flags ↔ flags[i]? = some true) ∧
    (flagsAny flags = true ↔ ∃ i, i ∈ iterFlagged flags) := by
  refine ⟨iterFlagged_sorted flags, mem_iterFlagged flags, ?_⟩
  unfold flagsAny
  rw [List.any_eq_true]
  constructor
  · rintro ⟨b, hb, h⟩
    simp only [id] at h
    subst h
    obtain ⟨i, hi⟩ := List.mem_iff_getElem?.1 hb
    exact ⟨i, (mem_iterFlagged _ _).2 hi⟩
  · rintro ⟨i, hi⟩
    exact ⟨true, List.mem_iff_getElem?.2 ⟨i, (mem_iterFlagged _ _).1 hi⟩, rfl⟩

theorem mem_of_flags {flags : List Bool} {n : Nat} {P : Nat → Prop} (hl : flags.length = n)
    (h : ∀ i < n, ∃ b, flags[i]? = some b ∧ (b = true ↔ P i)) (i : Nat) : i ∈ iterFlagged flags ↔ i < n ∧ P i := by
  rw [mem_iterFlagged]
  constructor
  · intro hi
    have hlt : i < n := by rw [← hl]; exact (List.getElem?_eq_some_iff.1 hi).1
    obtain ⟨b, hb, hp⟩ := h i hlt
    rw [hb] at hi
    exact ⟨hlt, hp.1 (Option.some.inj hi)⟩
  · rintro ⟨hlt, hp⟩
    obtain ⟨b, hb, hq⟩ := h i hlt
    rw [hb, hq.2 hp]

/-- **C65 (MLX90640).** `failed_pixels().iter_flagged()` lists the pixels whose EEPROM word is zero,
`outlier_pixels().iter_flagged()` those whose word has bit 0 set; no index appears in both. -/
theorem C65_flagged_640 (m : Mode) (data : List Byte) (c : Mlx90640.Calibration F) (h : Mlx90640.fromData m data = .ok c) :
    (∀ i, i ∈ iterFlagged c.toCalib.failed ↔ i < 768 ∧ eepromWord data (0x2440 + i) = 0#16) ∧
    (∀ i, i ∈ iterFlagged c.toCalib.outlier ↔ i < 768 ∧ (eepromWord data (0x2440 + i)).getLsbD 0 = true) ∧
    (∀ i ∈ iterFlagged c.toCalib.failed, i ∉ iterFlagged c.toCalib.outlier) := by
  obtain ⟨h1, h2, h3⟩ := C27_flags m data c h
  have hf := mem_of_flags h1 (P := fun i => eepromWord data (0x2440 + i) = 0#16)
    fun i hi => ⟨_, (h3 i hi).1, decide_eq_true_iff⟩
  have ho := mem_of_flags h2 (P := fun i => (eepromWord data (0x2440 + i)).getLsbD 0 = true)
    fun i hi => ⟨_, (h3 i hi).2.1, Iff.rfl⟩
  refine ⟨hf, ho, fun i hi hi' => ?_⟩
  rw [hf] at hi
  rw [ho, hi.2] at hi'
  exact absurd hi'.2 (by decide)

/-- **C65 (MLX90641).** Both lists hold the pixels whose four EEPROM words carry no data (checksums apart). -/
theorem C65_flagged_641 (m : Mode) (data : List Byte) (c : Mlx90641.Calibration F) (h : Mlx90641.fromData m data = .ok c)
    (D : Nat → BitVec 11) (hD : Ee641.Holds data D (Ee641.readAddresses 192)) :
    (∀ i, i ∈ iterFlagged c.toCalib.failed ↔ i < 192 ∧ ∀ a ∈ Ee641.pixelAddresses i, D a = 0#11) ∧
    iterFlagged c.toCalib.outlier = iterFlagged c.toCalib.failed := by
  obtain ⟨_, _, h1, _⟩ := C28_complete_641 m data c h
  obtain ⟨_, rfl⟩ := decode_of_accepted h hD
  refine ⟨mem_of_flags h1 fun i hi => ⟨_, px641_get _ i hi, ?_⟩, rfl⟩
  have hw : ∀ a, Ee641.widen D a = 0#16 ↔ D a = 0#11 := by
    intro a
    unfold Ee641.widen
    constructor
    · intro h
      have := congrArg BitVec.toNat h
      rw [BitVec.toNat_setWidth] at this
      refine BitVec.eq_of_toNat_eq ?_
      have hlt := (D a).isLt
      simp at this ⊢
      omega
    · intro h; rw [h]; rfl
  have hf : (pixel641 (F := F) (Ee641.widen D) i).failed = Ee641.isFailed (Ee641.widen D) i := by
    unfold pixel641
    cases hx : Ee641.isFailed (Ee641.widen D) i
    · rw [if_neg (by decide)]
    · rw [if_pos rfl]
  rw [hf]
  unfold Ee641.isFailed
  rw [decide_eq_true_iff]
  exact forall₂_congr fun a _ => hw a

example : iterFlagged [false, true, false, false, true] = [1, 4] ∧ flagsAny [false, false] = false := by decide

end Mlx.Props
