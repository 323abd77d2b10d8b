import Verif.Proofs.Session
/-
C47 while the camera goes on measuring.
-/
set_option autoImplicit false
namespace Mlx.Props
open Mlx Mlx.Spec Mlx.Proofs
variable {F σ ER EW : Type} [F32Ops F] {mem : σ → Word → Word}

/-- **C47 (sessions).** A driver made on a camera whose memory is only changed by writes and by its measurements: in every
session in which no control register write failed, the access pattern and the resolution correction that the driver uses are
those of the control register of the camera; and whatever failed, everything in the camera but what it measures (the RAM and
the status register) and the control register is what it was when the driver was made, and so are the driver's address and
calibration. -/
theorem C47_in_sessions (m : Mode) (b : Bus σ ER EW) (s s' : σ) (addr : Byte) (h : StaticMemory b addr mem)
    (d : Driver F σ) (n : Nat)
    (hd : (n = 24 ∧ Driver.new640 m b s addr = (s', .ok d)) ∨ (n = 12 ∧ Driver.new641 m b s addr = (s', .ok d)))
    (calls : List (Op F × Res (Err ER EW) Unit)) (d1 : Driver F σ) (hx : Session ⟨m, n, b⟩ mem anyFrame d calls d1) :
    ((∀ c ∈ calls, ¬ ControlWriteFailed c.1 c.2) → Caches d1 (mem d1.bus 0x800D#16)) ∧
    (∀ a, ¬ Volatile a → a ≠ 0x800D#16 → mem d1.bus a = mem s a) ∧ d1.addr = addr ∧ d1.calib = d.calib := by
  have hs : Supported ⟨m, n, b⟩ d ∧ d.addr = addr := by
    rcases hd with ⟨rfl, hd⟩ | ⟨rfl, hd⟩
    · exact (C39_constructed_drivers_supported m b s addr).1 s' d hd
    · exact (C39_constructed_drivers_supported m b s addr).2 s' d hd
  have hmem : mem d.bus = mem s := by
    rcases hd with ⟨rfl, hd⟩ | ⟨rfl, hd⟩
    · exact (new_static h hd).1
    · exact (new_static h hd).1
  have hst : StaticMemory (⟨m, n, b⟩ : Env σ ER EW).bus d.addr mem := by rw [hs.2]; exact h
  obtain ⟨_, ha1, hc1⟩ := session_supported hs.1 hx
  refine ⟨fun hn => session_caches hs.1 hst (C47_after_construction m b s s' addr d h (hd.imp And.right And.right)) hx hn,
    fun a h1 h2 => ?_, ha1.trans hs.2, hc1⟩
  rw [session_memory hs.1 hst hx a h1 h2, hmem]

end Mlx.Props
