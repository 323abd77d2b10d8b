import Verif.Proofs.Bits
import Verif.Spec.Camera
/-
C11: the sign extension helper. C12 to C15: which pixels belong to a subpage, and where they are read from.
-/
set_option autoImplicit false
namespace Mlx.Props
open Mlx Mlx.Spec Mlx.Proofs

/-- **C11.** `i16_from_bits` with `1 ≤ n ≤ 16` succeeds in both build modes; the result is congruent modulo
`2 ^ n` to the big-endian word (or to the byte), and lies in `[-2^(n-1), 2^(n-1))`, which determines it; from 8 bits on,
a single byte is its two's complement value. Outside `1..16` a checked build panics, and a release build takes the number
of bits modulo 16; a buffer with no byte always panics. -/
theorem C11_sign_extension (m : Mode) (n : Nat) :
    (1 ≤ n → n ≤ 16 → ∀ a b rest, ∃ v, i16FromBits (ε := Empty) m (a :: b :: rest) n = .ok v ∧
      (2 ^ n : Int) ∣ v - (a.toNat * 256 + b.toNat) ∧ -2 ^ (n - 1) ≤ v ∧ v < 2 ^ (n - 1)) ∧
    (1 ≤ n → n ≤ 8 → ∀ a, ∃ v, i16FromBits (ε := Empty) m [a] n = .ok v ∧
      (2 ^ n : Int) ∣ v - a.toNat ∧ -2 ^ (n - 1) ≤ v ∧ v < 2 ^ (n - 1)) ∧
    (8 ≤ n → n ≤ 16 → ∀ a, i16FromBits (ε := Empty) m [a] n = .ok a.toInt) ∧
    (∀ bytes n', 1 ≤ n' → n' ≤ 16 → n % 16 = n' % 16 →
      i16FromBits (ε := Empty) .wrapping bytes n = i16FromBits .wrapping bytes n') ∧
    (∀ a rest, n = 0 ∨ 16 < n → i16FromBits (ε := Empty) .checked (a :: rest) n = .panic) ∧
    i16FromBits (ε := Empty) m [] n = .panic := by
  have hdvd : ∀ x : Int, (2 ^ n : Int) ∣ Int.bmod x (2 ^ n) - x := by
    intro x
    have h := Int.bmod_emod (x := x) (m := 2 ^ n)
    have := Int.emod_emod_of_dvd x (Int.dvd_refl ((2 ^ n : Nat) : Int))
    have h2 := Int.sub_emod (Int.bmod x (2 ^ n)) x ((2 ^ n : Nat) : Int)
    rw [h, Int.sub_self] at h2
    have := Int.dvd_of_emod_eq_zero (a := ((2 ^ n : Nat) : Int)) (by simpa using h2)
    simpa using this
  refine ⟨?_, ?_, ?_, ?_, ?_, rfl⟩
  · intro h1 h2 a b rest
    refine ⟨_, i16FromBits_two m a b rest n h1 h2, ?_, bmod_pow_range _ n h1⟩
    have := hdvd (be16 a b).toNat
    rw [be16_toNat] at *
    push_cast at this
    exact_mod_cast this
  · intro h1 h2 a
    refine ⟨_, i16FromBits_one m a n h1 (by omega), ?_, bmod_pow_range _ n h1⟩
    have h3 := hdvd a.toInt
    have h4 : (2 ^ n : Int) ∣ a.toInt - a.toNat := by
      have : (256 : Int) ∣ a.toInt - a.toNat := by
        rw [BitVec.toInt_eq_toNat_bmod]
        simp only [Int.bmod_def]
        have := a.isLt
        omega
      have h5 : (2 ^ n : Int) ∣ 256 := by
        have := pow_dvd_pow (2 : Int) h2
        simpa using this
      exact Int.dvd_trans h5 this
    have := Int.dvd_add h3 h4
    simpa using this
  · intro h1 h2 a
    rw [i16FromBits_one m a n (by omega) h2]
    have h8 : 2 ^ 8 ≤ 2 ^ n := Nat.pow_le_pow_right (by decide) h1
    have h3 := BitVec.toInt_lt (x := a)
    have h4 := BitVec.le_toInt a
    norm_num at h3 h4 h8
    rw [Int.bmod_eq_of_le (by omega) (by omega)]
  · intro bytes n' h1 h2 he
    unfold i16FromBits
    congr 1
    funext num
    rw [if_pos (⟨h1, h2⟩ : 1 ≤ n' ∧ n' ≤ 16)]
    by_cases hn : 1 ≤ n ∧ n ≤ 16
    · rw [if_pos hn, show n = n' by omega]
    · rw [if_neg hn]
      have hk : (16 + 256 - n % 256) % 16 = 16 - n' := by omega
      simp only [hk]
  · intro a rest hn
    have : ¬ (1 ≤ n ∧ n ≤ 16) := by omega
    unfold i16FromBits
    cases rest <;> (simp only [Res.ok_bind]; rw [if_neg this])

example : i16FromBits (ε := Empty) .checked [0x03#8, 0xFE#8] 10 = .ok (-2) ∧
    i16FromBits (ε := Empty) .wrapping [0x1F#8] 5 = .ok (-1) := by decide

theorem pixels640_get (s : Subpage) (a : AccessPattern) (i : Nat) (hi : i < 768) :
    (Mlx90640.pixelsInSubpage s a)[i]? = some (Mlx90640.inSubpage s a i) := by
  unfold Mlx90640.pixelsInSubpage
  have : i < Mlx90640.numPixels := hi
  rw [List.getElem?_map, List.getElem?_range this]
  rfl

theorem cam640_pixels : Mlx90640.cam.pixelsInSubpage = Mlx90640.pixelsInSubpage := by
  simp only [Mlx90640.cam]

/-- **C12.** Every one of the 768 pixels is in exactly one of the two subpages: chess goes by the parity of
row plus column, interleaved by the parity of the row; each subpage has 384 pixels, and the iterator is 768
long. -/
theorem C12_mlx90640_subpage_partition (a : AccessPattern) :
    (∀ s, (Mlx90640.cam.pixelsInSubpage s a).length = 768) ∧
    (∀ s i, i < 768 → (Mlx90640.cam.pixelsInSubpage s a)[i]? = some (decide (Selected640 a s i))) ∧
    (∀ i, i < 768 → ∃ s, (Mlx90640.cam.pixelsInSubpage s a)[i]? = some true ∧
      ∀ s', (Mlx90640.cam.pixelsInSubpage s' a)[i]? = some true → s' = s) ∧
    (∀ s, (Mlx90640.cam.pixelsInSubpage s a).countP id = 384) := by
  have h2 : ∀ s i, i < 768 → (Mlx90640.cam.pixelsInSubpage s a)[i]? = some (decide (Selected640 a s i)) := by
    intro s i hi
    rw [cam640_pixels, pixels640_get s a i hi]
    congr 1
    rw [Bool.eq_iff_iff, decide_eq_true_eq]
    unfold Mlx90640.inSubpage Selected640 row col
    have e1 : Mlx90640.width = 32 := rfl
    rw [e1]
    cases a
    · cases s
      · simp only [Subpage.toNat, if_true, beq_iff_eq]
        omega
      · simp [Subpage.toNat]
        omega
    · simp
  refine ⟨?_, h2, ?_, ?_⟩
  · intro s
    rw [cam640_pixels]
    unfold Mlx90640.pixelsInSubpage
    rw [List.length_map, List.length_range]
    rfl
  · intro i hi
    simp only [h2 _ i hi, Option.some.injEq, decide_eq_true_eq]
    cases a
    · simp only [Selected640]
      rcases (show (row 32 i + col 32 i) % 2 = 0 ∨ (row 32 i + col 32 i) % 2 = 1 by omega) with h | h
      · exact ⟨.zero, h, by intro s' hs; cases s' <;> simp_all [Subpage.toNat]⟩
      · exact ⟨.one, h, by intro s' hs; cases s' <;> simp_all [Subpage.toNat]⟩
    · simp only [Selected640]
      rcases (show row 32 i % 2 = 0 ∨ row 32 i % 2 = 1 by omega) with h | h
      · exact ⟨.zero, h, by intro s' hs; cases s' <;> simp_all [Subpage.toNat]⟩
      · exact ⟨.one, h, by intro s' hs; cases s' <;> simp_all [Subpage.toNat]⟩
  · intro s
    cases s <;> cases a <;> decide +kernel

example : (Mlx90640.cam.pixelsInSubpage .one .chess)[33]? = some false ∧
    (Mlx90640.cam.pixelsInSubpage .one .interleave)[33]? = some true := by decide +kernel

/-- **C13.** Every subpage of the MLX90641 has all 192 pixels, for both access patterns. -/
theorem C13_mlx90641_full_subpages (s : Subpage) (a : AccessPattern) :
    (Mlx90641.cam.pixelsInSubpage s a).length = 192 ∧
    ∀ i, i < 192 → (Mlx90641.cam.pixelsInSubpage s a)[i]? = some true := by
  constructor
  · exact List.length_replicate
  · intro i hi
    have : i < Mlx90641.numPixels := hi
    show (List.replicate Mlx90641.numPixels true)[i]? = some true
    rw [List.getElem?_replicate, if_pos this]

example : (Mlx90641.cam.pixelsInSubpage .one .chess)[191]? = some true ∧
    (Mlx90641.cam.pixelsInSubpage .one .chess)[192]? = none := by decide +kernel

/-- **C14.** For the MLX90640, in both build modes, the range iterator fits its capacity `HEIGHT` and does not
overflow; ranges are word aligned, inside pixel RAM (`0x0400 .. 0x06FF`) and the 1536-byte buffer, pairwise
disjoint, fill every pixel of the subpage (in interleaved mode, only those), and always fill pixel `i` from
address `0x0400 + i`. -/
theorem C14_mlx90640_ram_ranges (m : Mode) (s : Subpage) (a : AccessPattern) :
    ∃ rs, Mlx90640.cam.collectRanges m s a Mlx90640.cam.height = .ok rs ∧
      rs.length ≤ Mlx90640.cam.height ∧
      (∀ r ∈ rs, r.bufferOffset % 2 = 0 ∧ r.length % 2 = 0 ∧ 0 < r.length ∧
        0x0400 ≤ r.startAddress ∧ r.startAddress + r.length / 2 ≤ 0x0700 ∧
        r.bufferOffset + r.length ≤ 2 * 768) ∧
      rs.Pairwise Apart ∧
      (∀ i, i < 768 → (Mlx90640.cam.pixelsInSubpage s a)[i]? = some true → ∃ r ∈ rs, Fills r i) ∧
      (∀ r ∈ rs, ∀ i, Fills r i → addressOf r (2 * i) = 0x0400 + i ∧ addressOf r (2 * i + 1) = 0x0400 + i) ∧
      (a = .interleave → ∀ r ∈ rs, ∀ i, Fills r i →
        (Mlx90640.cam.pixelsInSubpage s a)[i]? = some true) := by
  cases a with
  | chess =>
    refine ⟨[⟨0x0400, 0, 1536⟩], by cases m <;> cases s <;> rfl, by decide, by decide, by decide, ?_, ?_, ?_⟩
    · intro i hi _
      exact ⟨_, List.mem_singleton.2 rfl, by unfold Fills; simp; omega⟩
    · intro r hr i hf
      rw [List.mem_singleton] at hr
      subst hr
      unfold addressOf
      simp
      omega
    · intro h; cases h
  | interleave =>
    refine ⟨(List.range 12).map fun k =>
      ⟨0x0400 + 32 * (2 * k + s.toNat), 64 * (2 * k + s.toNat), 64⟩, ?_, ?_, ?_, ?_, ?_, ?_, ?_⟩
    · cases m <;> cases s <;> decide +kernel
    · simp [Mlx90640.cam, Mlx90640.height]
    · intro r hr
      obtain ⟨k, hk, rfl⟩ := List.mem_map.1 hr
      rw [List.mem_range] at hk
      have : s.toNat ≤ 1 := by cases s <;> decide
      refine ⟨?_, ?_, ?_, ?_, ?_, ?_⟩ <;> simp only <;> omega
    · cases s <;> decide
    · intro i hi hv
      rw [(C12_mlx90640_subpage_partition .interleave).2.1 s i hi] at hv
      have hv := of_decide_eq_true (Option.some.inj hv)
      unfold Selected640 row at hv
      refine ⟨_, List.mem_map.2 ⟨i / 64, List.mem_range.2 (by omega), rfl⟩, ?_⟩
      unfold Fills
      simp only
      omega
    · intro r hr i hf
      obtain ⟨k, hk, rfl⟩ := List.mem_map.1 hr
      unfold Fills at hf
      unfold addressOf
      simp only at hf ⊢
      omega
    · intro _ r hr i hf
      obtain ⟨k, hk, rfl⟩ := List.mem_map.1 hr
      rw [List.mem_range] at hk
      have hs : s.toNat ≤ 1 := by cases s <;> decide
      unfold Fills at hf
      simp only at hf
      rw [(C12_mlx90640_subpage_partition .interleave).2.1 s i (by omega)]
      congr 1
      apply decide_eq_true
      unfold Selected640 row
      simp only
      omega

example : Mlx90640.cam.collectRanges .checked .one .interleave 24 =
    .ok ((List.range 12).map fun k => ⟨0x0420 + 64 * k, 64 + 128 * k, 64⟩) := by decide +kernel

/-- **C15.** For the MLX90641, in both build modes, six ranges fill the whole 384-byte buffer without overlap,
without arithmetic overflow, and pixel `i` of subpage `s` is filled from address
`0x0400 + 64 * (i / 32) + 32 * s + i % 32`. -/
theorem C15_mlx90641_ram_ranges (m : Mode) (s : Subpage) (a : AccessPattern) :
    ∃ rs, Mlx90641.cam.collectRanges m s a Mlx90641.cam.height = .ok rs ∧ rs.length = 6 ∧
      (∀ r ∈ rs, r.bufferOffset % 2 = 0 ∧ r.length % 2 = 0 ∧ 0 < r.length ∧
        0x0400 ≤ r.startAddress ∧ r.startAddress + r.length / 2 ≤ 0x0580 ∧
        r.bufferOffset + r.length ≤ 2 * 192) ∧
      rs.Pairwise Apart ∧
      (∀ i, i < 192 → ∃ r ∈ rs, Fills r i) ∧
      (∀ r ∈ rs, ∀ i, Fills r i →
        addressOf r (2 * i) = 0x0400 + 64 * (i / 32) + 32 * s.toNat + i % 32 ∧
        addressOf r (2 * i + 1) = 0x0400 + 64 * (i / 32) + 32 * s.toNat + i % 32) := by
  refine ⟨(List.range 6).map fun k => ⟨0x0400 + 64 * k + 32 * s.toNat, 64 * k, 64⟩,
    ?_, by simp, ?_, ?_, ?_, ?_⟩
  · cases m <;> cases s <;> cases a <;> decide +kernel
  · intro r hr
    obtain ⟨k, hk, rfl⟩ := List.mem_map.1 hr
    rw [List.mem_range] at hk
    have : s.toNat ≤ 1 := by cases s <;> decide
    refine ⟨?_, ?_, ?_, ?_, ?_, ?_⟩ <;> simp only <;> omega
  · cases s <;> decide
  · intro i hi
    refine ⟨_, List.mem_map.2 ⟨i / 32, List.mem_range.2 (by omega), rfl⟩, ?_⟩
    unfold Fills
    simp only
    omega
  · intro r hr i hf
    obtain ⟨k, hk, rfl⟩ := List.mem_map.1 hr
    unfold Fills at hf
    unfold addressOf
    simp only at hf ⊢
    omega

example : Mlx90641.cam.collectRanges .checked .one .chess 12 =
    .ok ((List.range 6).map fun k => ⟨0x0420 + 64 * k, 64 * k, 64⟩) := by decide +kernel

end Mlx.Props
