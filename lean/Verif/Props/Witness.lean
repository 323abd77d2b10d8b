import Verif.Props.Access
import Verif.Props.Failures
import Verif.Props.Libraries
/-
Concrete drivers made by the constructors on recorded buses: what the theorems about all histories since construction (C44, C49, C50,
C53, C63 and others with `Constructed`) assume holds for them, with overflow checks and without.
-/
set_option linter.unusedSectionVars false
set_option autoImplicit false
namespace Mlx.Props
open Mlx Mlx.Spec Mlx.Proofs F32Ops

/-- Drivers of both cameras with the EEPROMs of the datasheets' worked examples, in both builds. -/
theorem constructed_example {F : Type} [F32Ops F] (m : Mode) :
    (∃ d : Driver F _, Constructed m (cameraBus 0x33#8) (exampleMemory words640, []) 0x33#8 ⟨m, 24, cameraBus 0x33#8⟩ d) ∧
    (∃ d : Driver F _, Constructed m (cameraBus 0x33#8) (exampleMemory words641, []) 0x33#8 ⟨m, 12, cameraBus 0x33#8⟩ d) := by
  have hst : StaticMemory (recorded (cameraBus 0x33#8)) 0x33#8 Prod.fst := static_recorded (cameraBus_static 0x33#8)
  have hv := fun cam => cameraBus_serves cam 0x33#8
  have hv2 : ∀ cam, Serves (recorded (cameraBus 0x33#8)) cam 0x33#8 Prod.fst := fun cam =>
    ⟨fun s => (hv cam).read s.1, fun s => (hv cam).write s.1, fun s => (hv cam).eeprom s.1⟩
  constructor
  · have hsums : ∀ i < 768, Ee640.SumsFit (eepromOf (exampleMemory words640)) i := by
      intro i hi
      have key : ∀ i < 768, Ee640.SumsFit (fun a => BitVec.ofNat 16 (words640 (a - 0x2400))) i := by decide +kernel
      exact (sumsFit_same (exampleMemory_same words640) hi).1 (key i hi)
    obtain ⟨s', d, hd⟩ := ((C68_construction (F := F) m _ (exampleMemory words640, []) _ hst).1 (hv2 _)).2 (Or.inr hsums)
    exact ⟨d, Or.inl ⟨rfl, s', hd⟩⟩
  · have hw : ∀ a ∈ Ee641.readAddresses 192,
        WithinOneBit (eepromOf (exampleMemory words641) a) (codeword (values641 a)) := by
      intro a ha
      obtain ⟨h1, h2, _⟩ := readAddresses_bounds ha
      rw [exampleMemory_eeprom _ (by omega) (by omega)]
      have e := eepromWord_dump words641 (a - 0x2400) (by omega)
      rw [show 0x2400 + (a - 0x2400) = a by omega] at e
      rw [← e]
      exact example641_holds a ha
    obtain ⟨s', d, hd⟩ := ((C68_construction (F := F) m _ (exampleMemory words641, []) _ hst).2 (hv2 _)).2
      ⟨values641, hw, Or.inr example641_fits⟩
    exact ⟨d, Or.inr ⟨rfl, s', hd⟩⟩

/-- A camera that reports an absurd supply voltage. -/
def absurdMemory (a : Word) : Word := if a = 0x072A#16 then 0x7FFF#16 else exampleMemory words640 a

/-- What the third of three calls returns: the resolution, the emissivity, an image. -/
def thirdResult (m : Mode) (M : Word → Word) : Option (Res (Err Unit Unit) Unit) :=
  let env : Env _ Unit Unit := recordedEnv ⟨m, 24, cameraBus 0x33#8⟩
  match Driver.new640 (F := Int) m (recorded (cameraBus 0x33#8)) (M, []) 0x33#8 with
  | (_, .ok d) => some ((Op.generateImageSubpageTo .zero (List.replicate 768 0)).exec env
      (runOps env [.resolution, .overrideEmissivity 2] d)).2
  | _ => none

/-- Both cases of C63 occur: the same calls, on a camera with an absurd supply voltage, panic with overflow checks and succeed without; on
the camera of the example they succeed in both builds. -/
theorem thirdResult_example : thirdResult .checked absurdMemory = some .panic ∧ thirdResult .wrapping absurdMemory = some (.ok ()) ∧
    thirdResult .checked (exampleMemory words640) = some (.ok ()) := by decide +kernel

/-- Hence a driver, a history and a call for which C63 says that a word received for the supply voltage is out of range. -/
example : ∃ (d : Driver Int ((Word → Word) × List (Txn Unit Unit))) (ts : List (Txn Unit Unit)),
    Constructed .checked (cameraBus 0x33#8) (absurdMemory, []) 0x33#8 ⟨.checked, 24, cameraBus 0x33#8⟩ d ∧
    (∀ t ∈ ts, t.succeeded = true) ∧ VoltageOverflow 0x33#8 d.calib ts := by
  have h := thirdResult_example.1
  unfold thirdResult at h
  dsimp only at h
  revert h
  generalize hq : Driver.new640 (F := Int) .checked (recorded (cameraBus 0x33#8)) (absurdMemory, []) 0x33#8 = q
  obtain ⟨s', r⟩ := q
  cases r with
  | err e => intro h; cases h
  | panic => intro h; cases h
  | ok d =>
    intro h
    have hc : Constructed .checked (cameraBus 0x33#8) (absurdMemory, []) 0x33#8 ⟨.checked, 24, cameraBus 0x33#8⟩ d := Or.inl ⟨rfl, s', hq⟩
    obtain ⟨ts, -, h2⟩ := C63_panics_only_on_voltage_overflow _ _ _ _ _ d hc [.resolution, .overrideEmissivity 2]
      (.generateImageSubpageTo .zero (List.replicate 768 0))
    obtain ⟨-, -, h3, h4⟩ := h2.1 (Option.some.inj h)
    exact ⟨d, ts, hc, h3, h4⟩

end Mlx.Props
