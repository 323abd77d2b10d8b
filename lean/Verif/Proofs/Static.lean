import Verif.Proofs.Image
/-
Reading from a device with static memory.
-/
set_option linter.unusedSectionVars false
set_option autoImplicit false
namespace Mlx.Proofs
open Mlx Mlx.Spec F32Ops
variable {F σ ER EW : Type} [F32Ops F]

/-! ### Filling a buffer from ranges -/

theorem splice_get (buf : List Byte) (off : Nat) (chunk : List Byte) (h : off + chunk.length ≤ buf.length)
    (j : Nat) : (splice buf off chunk)[j]? =
      if off ≤ j ∧ j < off + chunk.length then chunk[j - off]? else buf[j]? := by
  unfold splice
  have hl : (buf.take off).length = off := by rw [List.length_take]; omega
  rw [List.append_assoc]
  by_cases h1 : j < off
  · rw [List.getElem?_append_left (by omega), List.getElem?_take, if_pos h1, if_neg (by omega)]
  · rw [List.getElem?_append_right (by omega), hl]
    by_cases h2 : j < off + chunk.length
    · rw [List.getElem?_append_left (by omega), if_pos ⟨by omega, h2⟩]
    · rw [List.getElem?_append_right (by omega), if_neg (by omega), List.getElem?_drop]
      congr 1
      omega

/-- The byte position `j` lies in the range. -/
def InRange (r : PixelRange) (j : Nat) : Prop := r.bufferOffset ≤ j ∧ j < r.bufferOffset + r.length

theorem spliceAll_cons (buf : List Byte) (r : PixelRange) (rs : List PixelRange) (c : List Byte)
    (cs : List (List Byte)) :
    spliceAll buf (r :: rs) (c :: cs) = spliceAll (splice buf r.bufferOffset c) rs cs := rfl

theorem spliceAll_length (rs : List PixelRange) (cs : List (List Byte)) (buf : List Byte)
    (hl : cs.map List.length = rs.map PixelRange.length)
    (hf : ∀ r ∈ rs, r.bufferOffset + r.length ≤ buf.length) : (spliceAll buf rs cs).length = buf.length := by
  induction rs generalizing cs buf with
  | nil => cases cs <;> rfl
  | cons r rs ih =>
    cases cs with
    | nil => simp at hl
    | cons c cs =>
      simp only [List.map_cons, List.cons.injEq] at hl
      have hfit := hf r (List.mem_cons_self ..)
      have hsl : (splice buf r.bufferOffset c).length = buf.length := splice_length _ _ _ (by omega)
      rw [spliceAll_cons, ih cs _ hl.2 (by intro r' hr'; rw [hsl]; exact hf r' (List.mem_cons_of_mem _ hr')), hsl]

/-- Bytes covered by a range do not depend on the old buffer. -/
theorem spliceAll_agree (rs : List PixelRange) (cs : List (List Byte)) (buf buf' : List Byte)
    (hb : buf'.length = buf.length)
    (hl : cs.map List.length = rs.map PixelRange.length)
    (hf : ∀ r ∈ rs, r.bufferOffset + r.length ≤ buf.length) (j : Nat)
    (hj : (∃ r ∈ rs, InRange r j) ∨ buf[j]? = buf'[j]?) :
    (spliceAll buf rs cs)[j]? = (spliceAll buf' rs cs)[j]? := by
  induction rs generalizing cs buf buf' with
  | nil =>
    rcases hj with ⟨r, hr, _⟩ | hj
    · cases hr
    · cases cs <;> exact hj
  | cons r rs ih =>
    cases cs with
    | nil => simp at hl
    | cons c cs =>
      simp only [List.map_cons, List.cons.injEq] at hl
      have hfit := hf r (List.mem_cons_self ..)
      have hsl : (splice buf r.bufferOffset c).length = buf.length := splice_length _ _ _ (by omega)
      have hsl' : (splice buf' r.bufferOffset c).length = buf'.length := splice_length _ _ _ (by omega)
      rw [spliceAll_cons, spliceAll_cons]
      refine ih cs _ _ (by omega) hl.2 (by intro r' hr'; rw [hsl]; exact hf r' (List.mem_cons_of_mem _ hr')) ?_
      by_cases hex : ∃ r' ∈ rs, InRange r' j
      · exact Or.inl hex
      · refine Or.inr ?_
        rw [splice_get _ _ _ (by omega), splice_get _ _ _ (by omega)]
        by_cases hin : r.bufferOffset ≤ j ∧ j < r.bufferOffset + c.length
        · rw [if_pos hin, if_pos hin]
        · rw [if_neg hin, if_neg hin]
          rcases hj with ⟨r', hr', hin'⟩ | hj
          · rcases List.mem_cons.1 hr' with rfl | hr'
            · exfalso; apply hin; rw [hl.1]; exact hin'
            · exact absurd ⟨r', hr', hin'⟩ hex
          · exact hj

/-- Bytes covered by ranges have the value all ranges that cover them agree on. -/
theorem spliceAll_target (target : Nat → Byte) (rs : List PixelRange) (f : PixelRange → List Byte)
    (buf : List Byte) (hl : ∀ r ∈ rs, (f r).length = r.length)
    (hf : ∀ r ∈ rs, r.bufferOffset + r.length ≤ buf.length) (j : Nat)
    (ht : ∀ r ∈ rs, InRange r j → (f r)[j - r.bufferOffset]? = some (target j))
    (hj : (∃ r ∈ rs, InRange r j) ∨ buf[j]? = some (target j)) :
    (spliceAll buf rs (rs.map f))[j]? = some (target j) := by
  induction rs generalizing buf with
  | nil =>
    rcases hj with ⟨r, hr, _⟩ | hj
    · cases hr
    · exact hj
  | cons r rs ih =>
    have hfit := hf r (List.mem_cons_self ..)
    have hlr := hl r (List.mem_cons_self ..)
    have hsl : (splice buf r.bufferOffset (f r)).length = buf.length := splice_length _ _ _ (by omega)
    rw [List.map_cons, spliceAll_cons]
    refine ih _ (fun r' hr' => hl r' (List.mem_cons_of_mem _ hr'))
      (by intro r' hr'; rw [hsl]; exact hf r' (List.mem_cons_of_mem _ hr'))
      (fun r' hr' => ht r' (List.mem_cons_of_mem _ hr')) ?_
    by_cases hex : ∃ r' ∈ rs, InRange r' j
    · exact Or.inl hex
    · refine Or.inr ?_
      rw [splice_get _ _ _ (by omega)]
      by_cases hin : r.bufferOffset ≤ j ∧ j < r.bufferOffset + (f r).length
      · rw [if_pos hin]
        exact ht r (List.mem_cons_self ..) ⟨hin.1, by omega⟩
      · rw [if_neg hin]
        rcases hj with ⟨r', hr', hin'⟩ | hj
        · rcases List.mem_cons.1 hr' with rfl | hr'
          · exfalso; apply hin; rw [hlr]; exact hin'
          · exact absurd ⟨r', hr', hin'⟩ hex
        · exact hj

/-! ### Static memory -/

variable {b : Bus σ ER EW} {addr : Byte} {mem : σ → Word → Word}

theorem memBytes_two (M : Word → Word) (base : Word) : memBytes M base 2 = toBe (M base) := by
  show [_, _] = [_, _]
  simp

theorem static_regRead (h : StaticMemory b addr mem) (s : σ) (reg : Word) :
    mem (regRead b s addr reg).1 = mem s ∧
      ∀ w, (regRead b s addr reg).2 = .ok w → w = mem s reg := by
  refine ⟨h.read_mem s reg _, ?_⟩
  intro w hw
  have hd := h.read_data s reg [0#8, 0#8]
  unfold regRead at hw
  simp only at hw
  generalize b.writeRead s addr (toBe reg) [0#8, 0#8] = q at hd hw
  obtain ⟨s', buf, e⟩ := q
  cases e with
  | some e => cases hw
  | none =>
    have hb := hd rfl
    simp only at hb hw
    rw [hb] at hw
    rw [show ([0#8, 0#8] : List Byte).length = 2 from rfl, memBytes_two] at hw
    have := be16_toBe (mem s reg)
    simp only [toBe, List.getD_cons_zero, List.getD_cons_succ] at hw
    rw [this] at hw
    exact (Except.ok.inj hw).symm

theorem static_regWrite (h : StaticMemory b addr mem) (s : σ) (reg w : Word) :
    mem (regWrite b s addr reg w).1 =
      match (regWrite b s addr reg w).2 with
      | none => setWord (mem s) reg w
      | some _ => mem s := by
  unfold regWrite
  cases he : (b.write s addr (toBe reg ++ toBe w)).2 with
  | none => exact h.write_ok s reg w he
  | some e => exact h.write_err s reg w (by rw [he]; simp)

theorem static_readRanges (h : StaticMemory b addr mem) (rs : List PixelRange) (s : σ) (buf : List Byte)
    (hf : ∀ r ∈ rs, r.bufferOffset + r.length ≤ buf.length) :
    mem (readRanges b addr rs s buf).1 = mem s ∧
    ((readRanges b addr rs s buf).2.2 = .ok () → (readRanges b addr rs s buf).2.1 =
      spliceAll buf rs (rs.map fun r => memBytes (mem s) (BitVec.ofNat 16 r.startAddress) r.length)) := by
  induction rs generalizing s buf with
  | nil => exact ⟨rfl, fun _ => rfl⟩
  | cons r rs ih =>
    have hfit := hf r (List.mem_cons_self ..)
    have hsub : ((buf.drop r.bufferOffset).take r.length).length = r.length := by
      rw [List.length_take, List.length_drop]; omega
    unfold readRanges
    rw [if_pos hfit]
    have hd := h.read_data s (BitVec.ofNat 16 r.startAddress) ((buf.drop r.bufferOffset).take r.length)
    have hm := h.read_mem s (BitVec.ofNat 16 r.startAddress) ((buf.drop r.bufferOffset).take r.length)
    rw [hsub] at hd
    generalize b.writeRead s addr (toBe (BitVec.ofNat 16 r.startAddress))
      ((buf.drop r.bufferOffset).take r.length) = q at hd hm
    obtain ⟨s1, sub, e⟩ := q
    cases e with
    | some e => exact ⟨hm, fun hc => nomatch hc⟩
    | none =>
      simp only at hm
      have hsubd := hd rfl
      simp only at hsubd
      have hlen : sub.length = r.length := by rw [hsubd]; simp [memBytes]
      have hsl : (splice buf r.bufferOffset sub).length = buf.length := splice_length _ _ _ (by omega)
      have heq : buf.take r.bufferOffset ++ sub ++ buf.drop (r.bufferOffset + r.length) =
          splice buf r.bufferOffset sub := by unfold splice; rw [hlen]
      simp only [heq]
      obtain ⟨i1, i2⟩ := ih s1 (splice buf r.bufferOffset sub)
        (by intro r' hr'; rw [hsl]; exact hf r' (List.mem_cons_of_mem _ hr'))
      rw [hm] at i1 i2
      refine ⟨i1, fun hc => ?_⟩
      rw [i2 hc, List.map_cons, spliceAll_cons, hsubd]

/-- The readings of a frame stored in a memory. -/
theorem static_ramData (h : StaticMemory b addr mem) (cam : Cam) (s : σ) (sp : Subpage) :
    mem (ramDataFromI2c cam b s addr sp).1 = mem s ∧
    ∀ ram, (ramDataFromI2c cam b s addr sp).2 = .ok ram →
      ram = frameReadings cam sp (mem s) := by
  unfold ramDataFromI2c
  simp only [readRamValue_eq]
  obtain ⟨m1, v1⟩ := static_regRead h s cam.tAVbe
  generalize regRead b s addr cam.tAVbe = q1 at m1 v1 ⊢
  obtain ⟨s1, _ | w1⟩ := q1
  · exact ⟨m1, fun _ hc => nomatch hc⟩
  simp only at m1 v1 ⊢
  obtain ⟨m2, v2⟩ := static_regRead h s1 cam.tAPtat
  generalize regRead b s1 addr cam.tAPtat = q2 at m2 v2 ⊢
  obtain ⟨s2, _ | w2⟩ := q2
  · exact ⟨by simp only at m2 ⊢; rw [m2, m1], fun _ hc => nomatch hc⟩
  simp only at m2 v2 ⊢
  obtain ⟨m3, v3⟩ := static_regRead h s2 cam.vddPixel
  generalize regRead b s2 addr cam.vddPixel = q3 at m3 v3 ⊢
  obtain ⟨s3, _ | w3⟩ := q3
  · exact ⟨by simp only at m3 ⊢; rw [m3, m2, m1], fun _ hc => nomatch hc⟩
  simp only at m3 v3 ⊢
  obtain ⟨m4, v4⟩ := static_regRead h s3 cam.gain
  generalize regRead b s3 addr cam.gain = q4 at m4 v4 ⊢
  obtain ⟨s4, _ | w4⟩ := q4
  · exact ⟨by simp only at m4 ⊢; rw [m4, m3, m2, m1], fun _ hc => nomatch hc⟩
  simp only at m4 v4 ⊢
  obtain ⟨m5, v5⟩ := static_regRead h s4 (cam.compensationPixel sp)
  generalize regRead b s4 addr (cam.compensationPixel sp) = q5 at m5 v5 ⊢
  obtain ⟨s5, _ | w5⟩ := q5
  · exact ⟨by simp only at m5 ⊢; rw [m5, m4, m3, m2, m1], fun _ hc => nomatch hc⟩
  simp only at m5 v5 ⊢
  refine ⟨by rw [m5, m4, m3, m2, m1], ?_⟩
  intro ram hram
  cases hram
  rw [v1 w1 rfl, v2 w2 rfl, v3 w3 rfl, v4 w4 rfl, v5 w5 rfl, m4, m3, m2, m1]
  rfl

theorem memBytes_get (M : Word → Word) (base : Word) (n k : Nat) (hk : k < n) :
    (memBytes M base n)[k]? = some (if k % 2 = 0 then hiByte (M (base + BitVec.ofNat 16 (k / 2)))
      else loByte (M (base + BitVec.ofNat 16 (k / 2)))) := by
  unfold memBytes
  rw [List.getElem?_map, List.getElem?_range hk]
  rfl

/-- A buffer filled from ranges of static memory holds the word of every pixel that is covered. -/
theorem ranges_pixel (M : Word → Word) (rs : List PixelRange) (buf : List Byte) (pa : Nat → Nat)
    (hal : ∀ r ∈ rs, r.bufferOffset % 2 = 0 ∧ r.length % 2 = 0 ∧ r.bufferOffset + r.length ≤ buf.length)
    (hpa : ∀ r ∈ rs, ∀ i, Fills r i → addressOf r (2 * i) = pa i ∧
      addressOf r (2 * i + 1) = pa i)
    (i : Nat) (hi : ∃ r ∈ rs, Fills r i) (px : List Byte)
    (hpx : px = spliceAll buf rs (rs.map fun r => memBytes M (BitVec.ofNat 16 r.startAddress) r.length)) :
    px[2 * i]? = some (hiByte (M (BitVec.ofNat 16 (pa i)))) ∧
    px[2 * i + 1]? = some (loByte (M (BitVec.ofNat 16 (pa i)))) := by
  have hlen : ∀ r ∈ rs, (memBytes M (BitVec.ofNat 16 r.startAddress) r.length).length = r.length := by
    intro r _; simp [memBytes]
  have hfill : ∀ r ∈ rs, ∀ j, j / 2 = i → InRange r j → Fills r i := by
    intro r hr j hj hin
    have := hal r hr
    unfold InRange at hin
    unfold Fills
    omega
  have hin : ∀ j, j / 2 = i → ∃ r ∈ rs, InRange r j := by
    intro j hj
    obtain ⟨r, hr, hf⟩ := hi
    unfold Fills at hf
    exact ⟨r, hr, by unfold InRange; omega⟩
  have key : ∀ j, j / 2 = i → px[j]? = some (if j % 2 = 0 then hiByte (M (BitVec.ofNat 16 (pa i)))
      else loByte (M (BitVec.ofNat 16 (pa i)))) := by
    intro j hj
    rw [hpx]
    refine spliceAll_target (fun j => if j % 2 = 0 then hiByte (M (BitVec.ofNat 16 (pa i)))
      else loByte (M (BitVec.ofNat 16 (pa i)))) rs _ buf hlen (fun r hr => (hal r hr).2.2) j ?_ (Or.inl (hin j hj))
    intro r hr hinr
    have hfr := hfill r hr j hj hinr
    have ha := hpa r hr i hfr
    unfold InRange at hinr
    have hal' := hal r hr
    rw [memBytes_get _ _ _ _ (by omega)]
    have hpar : (j - r.bufferOffset) % 2 = j % 2 := by omega
    have haddr : BitVec.ofNat 16 r.startAddress + BitVec.ofNat 16 ((j - r.bufferOffset) / 2) =
        BitVec.ofNat 16 (pa i) := by
      rw [← BitVec.ofNat_add]
      congr 1
      unfold addressOf at ha
      unfold Fills at hfr
      have : (j - r.bufferOffset) / 2 = (2 * i - r.bufferOffset) / 2 := by omega
      omega
    rw [hpar, haddr]
  refine ⟨?_, ?_⟩
  · have := key (2 * i) (by omega)
    rwa [if_pos (by omega)] at this
  · have := key (2 * i + 1) (by omega)
    rwa [if_neg (by omega)] at this

/-- Where the pixels of a frame are, in memory and in the buffer. -/
theorem frame_layout {env : Env σ ER EW} {d : Driver F σ} (hs : Supported env d) (sp : Subpage) : ∃ rs,
    d.calib.cam.collectRanges env.mode sp d.accessPattern env.height = .ok rs ∧ ∃ pa : Nat → Nat,
    (∀ r ∈ rs, r.bufferOffset % 2 = 0 ∧ r.length % 2 = 0 ∧ r.bufferOffset + r.length ≤ d.pixelBuf.length) ∧
    (∀ r ∈ rs, ∀ i, Fills r i → addressOf r (2 * i) = pa i ∧
      addressOf r (2 * i + 1) = pa i) ∧
    (∀ i, i < d.calib.cam.numPixels → (d.calib.cam.pixelsInSubpage sp d.accessPattern)[i]? = some true →
      ∃ r ∈ rs, Fills r i) ∧
    (∀ i, PixelAt d.calib.cam sp i (BitVec.ofNat 16 (pa i))) := by
  rw [hs.buffer, hs.height]
  rcases hs.cam with hc | hc
  · obtain ⟨rs, h1, _, h2, _, h3, h4, _⟩ := Props.C14_mlx90640_ram_ranges env.mode sp d.accessPattern
    rw [hc]
    exact ⟨rs, h1, fun i => 0x0400 + i, fun r hr => ⟨(h2 r hr).1, (h2 r hr).2.1, (h2 r hr).2.2.2.2.2⟩, h4, h3,
      fun i => Or.inl ⟨rfl, rfl⟩⟩
  · obtain ⟨rs, h1, _, h2, _, h3, h4⟩ := Props.C15_mlx90641_ram_ranges env.mode sp d.accessPattern
    rw [hc]
    exact ⟨rs, h1, fun i => 0x0400 + 64 * (i / 32) + 32 * sp.toNat + i % 32,
      fun r hr => ⟨(h2 r hr).1, (h2 r hr).2.1, (h2 r hr).2.2.2.2.2⟩, h4, fun i hi _ => h3 i hi,
      fun i => Or.inr ⟨rfl, rfl⟩⟩

theorem static_readRam {env : Env σ ER EW} {d : Driver F σ} (hs : Supported env d)
    (h : StaticMemory env.bus d.addr mem) (sp : Subpage) :
    mem (Driver.readRam env sp d).1.bus = mem d.bus ∧
    ∀ ram, (Driver.readRam env sp d).2 = .ok ram →
      ram = frameReadings d.calib.cam sp (mem d.bus) ∧
      ∀ i, i < d.calib.cam.numPixels → (d.calib.cam.pixelsInSubpage sp d.accessPattern)[i]? = some true →
        ∃ address, PixelAt d.calib.cam sp i address ∧
          (Driver.readRam env sp d).1.pixelBuf[2 * i]? = some (hiByte (mem d.bus address)) ∧
          (Driver.readRam env sp d).1.pixelBuf[2 * i + 1]? = some (loByte (mem d.bus address)) := by
  obtain ⟨rs, hrs, pa, hal, hpa, hcov, hat⟩ := frame_layout hs sp
  unfold Driver.readRam Mlx.readRam
  rw [hrs]
  simp only
  obtain ⟨m1, v1⟩ := static_readRanges h rs d.bus d.pixelBuf (fun r hr => (hal r hr).2.2)
  generalize readRanges env.bus d.addr rs d.bus d.pixelBuf = q at m1 v1 ⊢
  obtain ⟨s1, px, _ | e | _⟩ := q
  · simp only at m1 v1 ⊢
    obtain ⟨m2, v2⟩ := static_ramData h d.calib.cam s1 sp
    generalize ramDataFromI2c d.calib.cam env.bus s1 d.addr sp = q2 at m2 v2 ⊢
    obtain ⟨s2, r2⟩ := q2
    simp only at m2 v2 ⊢
    refine ⟨by rw [m2, m1], ?_⟩
    intro ram hram
    refine ⟨by rw [v2 ram hram, m1], ?_⟩
    intro i hi hv
    exact ⟨_, hat i, ranges_pixel (mem d.bus) rs d.pixelBuf pa hal hpa i (hcov i hi hv) px (v1 trivial)⟩
  · exact ⟨m1, fun _ hc => nomatch hc⟩
  · exact ⟨m1, fun _ hc => nomatch hc⟩

end Mlx.Proofs
