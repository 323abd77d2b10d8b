# Formal model of paxswill/mlx9064x-rs in Lean 4

The Rust crate `mlx9064x` (drivers for the MLX90640/MLX90641 thermal cameras) is modelled function by function.

| Directory (under `lean/Verif`) | Contents |
|---|---|
| `Model/` | the code: one definition per Rust function, citing file and lines of `/repo` |
| `Spec/` | what the English properties talk about: datasheet formulas, bit fields, memory maps, bus traces, binary32. Written from the documentation; meant to be read |
| `Proofs/` | helper lemmas; need not be read to understand what is proved |
| `Props/` | the theorems `Cxx_*` (listed in `MANIFEST.json`) with concrete cases (`example`) that meet their hypotheses |

## Modelling conventions

* **Outcomes.** `Res ε α = ok a | err e | panic`. Every panic path of the Rust code (slice out of bounds, `split_at`,
  `ArrayVec` overflow, arithmetic overflow, `unwrap`, reading past the end of a `bytes::Buf`) is the value `panic`.
* **Overflow.** Rust integer arithmetic panics in debug builds and wraps in release builds. The model takes a parameter
  `Mode = checked | wrapping`, and theorems quantify over it (or name it). C62 relates the two.
* **Integers.** Bytes are `BitVec 8`, registers and addresses `BitVec 16`; signed values (`i8`, `i16`) are `Int` with
  explicit `arith16`/`shl16` operations.
* **Floats.** `f32` is an abstract type `F` with the operations the code uses (`F32Ops`). Three kinds of theorems:
  for every `F` (data flow: these hold in particular for IEEE 754 binary32, whatever its rounding);
  for `F = ℝ` (the formula is the documented one); and for every `F` that satisfies `Binary32` (`Spec/Binary32.lean`:
  correctly rounded literals, conversions, `+ - * /` and `recip`, exact negation and comparison, `exp2` exact on integers;
  nothing about ties, signed zero, `powf`, `powi`). `Proofs/Binary32.lean` constructs an instance, so the
  assumptions are consistent.
* **Bus.** An I²C bus is an arbitrary state type with two arbitrary functions (`write_read`, `write`), each of which may
  fail at any time and may change its state at will: quantifying over it covers every device, every fault schedule and
  every concurrent camera update between transactions. The only assumption is Rust's: a `&mut [u8]` keeps its length.
  A `recorded` bus logs transactions; C60 proves that the recorder is unobservable, so theorems about traces are theorems
  about the bus itself. A `StaticMemory` bus is one that behaves as a memory that only changes by writes (it may still
  fail at any time). A `Session` (`Spec/Session.lean`) is a sequence of calls on such a bus between which the camera may
  measure, that is, replace its RAM and its status register by anything; only measurements during a call are excluded (C54
  shows what they can do; a `FreeRunning` camera, `Spec/Hold.lean`, measures between any two transactions: C105–C107). A `Watch` (`Spec/Watch.lean`) is a session in which one buffer is passed to every
  `generate_image_if_ready` and a measurement sets the new-data flag; its events are the measurements, images, idle and
  failed polls and other calls, in order.
* **Driver.** `CameraDriver` is a record; each public method is a function from the record (and the destination slice) to
  outcome, new record and new destination. `Op` enumerates the public methods that can change state; `runOps` is an
  arbitrary history of calls. `synchronize` spins, so its model takes the number of polls it is observed for, theorems
  quantify over that number, and "still waiting" is a distinct result (C48 proves that a larger number does not change
  an outcome once there is one).
* **Generics.** `Camera`, `CalibrationData` etc. are traits in Rust; the model has a record `Cam` with two values and a
  record `Calib F`, into which the two `Calibration` types are converted (`toCalib`).

## Properties: what is modelled and how it is proved

| Id | Model | Proof |
|---|---|---|
| C01-C04 | `hamming.rs` on `BitVec 16` | the parity map is linear over xor; the decoder's behaviour for all 65536 words follows from the syndromes of 11 data and 5 check bits |
| C05-C10, C57 | `register.rs` on `BitVec 16` | bitwise extensionality, case analysis over enumerations |
| C11 | `util.rs::i16_from_bits` | integer arithmetic (`Int.bmod`) |
| C12-C15 | pixel and range iterators of both cameras, as step functions collected into a bounded buffer | index arithmetic; kernel evaluation of the finite tables |
| C16 | `read_ram` on an arbitrary recorded bus | induction over the list of ranges |
| C17-C22, C58 | `calculations.rs`: loops over arbitrary lists, arbitrary `F` | induction over the zipped lists |
| C23 | `delta_v` with overflow mode | exact condition, and reachability for every accepted EEPROM |
| C24-C31, C61 | `mlx90640/eeprom.rs` | symbolic execution of the parser over arbitrary buffers; closed form of the calibration |
| C32-C38 | `mlx90641/eeprom.rs` | the same on top of C01-C04 |
| C39-C46, C48-C50, C52, C53 | `driver.rs` over an arbitrary recorded bus | case analysis per method, induction over histories |
| C47, C54, C55 | all layers, on a camera with static memory | invariants over histories and sessions |
| C51 | histories of image calls over the pixel buffer | the buffer is always overwritten by what is read |
| C56 | `F = ℝ` | real analysis (`rpow`): the temperature formula inverts the radiation law |
| C59 | `F = ℝ` | algebra; counterexample |
| C60 | recorder on an arbitrary bus | simulation |
| C62, C63, C64 | both overflow modes, arbitrary bus, arbitrary history | simulation between the modes; complete case analysis of outcomes |
| C65 | `FlaggedPixels` iterators | induction |
| C66 | EEPROM words to calibration (table of formulas), camera memory to temperatures | composition of C25-C37, C47, C55 over sessions |
| C67, C68 | address ranges of all transactions; no failure on a bus that serves documented accesses | induction over histories and sessions; totality of decoding |
| C72 | registers read and written without a driver | case analysis on one transaction |
| C73 | image methods on destinations of any length | induction over the destination |
| C69, C70, C71 | `Binary32` arithmetic | exactness of scaled integers; propagation of rounding errors |
| C74 | the same, with `AccuratePowers` as a hypothesis on `powi` and `powf` (`Spec/Object.lean`) | propagation of rounding errors, relative to each quantity, through both fourth roots |
| C75 | a whole camera (static memory), all image methods, `Binary32` arithmetic | C66 composed with C70, C71, C74 |
| C76 | write masks and mutators of the registers | case analysis on bits; induction over edits |
| C77 | conversions of two buffers; `Binary32Order` (rounding is a monotone function of the exact result) for raw images, reals for temperatures | monotonicity of each operation; algebra on the first estimates |
| C78-C81 | the mock camera of the workspace (`i2c_mock.rs`) as a bus, with arbitrary contents | case analysis of `get` and `set`; it is an instance of the `StaticMemory` and `Serves` of C68; induction over histories |
| C82, C83 | a `Watch` on a camera's memory: any interleaving of measurements, polls and other calls | induction over the events; the status bits each call may change (`Proofs/Watch.lean`); C66 for each image (C75 in binary32) |
| C84 | a bus that `ActsAs` a single device at an address; `joined` buses; calls of two drivers interleaved | a simulation: every operation commutes with the view of one device (`Proofs/View.lean`); induction over the calls |
| C85 | the transactions a recording bus notes down; a table of costs (`Spec/Traffic.lean`) | case by case over the calls, using the plan of reads of a frame; induction over the history |
| C86 | `RamAddress` and `address_enum_ops!` | case analysis over the variants |
| C87 | `Display`, `Debug` and `source` of errors and addresses, as lists of characters | induction over the digits; prefixes |
| C88 | the control register after any session (`Spec/Restart.lean`: `lastSet`) | induction over the session; each call replaces one field or none |
| C89 | a bus whose transactions stop after any number (`mortal`), then construction on the same camera | C88 on the mortal bus; EEPROM unchanged, so the same calibration |
| C90 | the conversions with two emissivities or two reflected temperatures, over the reals (`Spec/Scene.lean`: `Ordinary`) | the emissivity is the last division; the documented temperature is strictly increasing in `T_a-r` |
| C91 | the conversions with two emissivities, over the reals | strict monotonicity in the signal (C77) and in `T_a-r` (C90) |
| C92 | both example programs' address argument, `terminal-temperatures` from construction to the printed text (`{:4.2}` is an arbitrary format; `sleep` an arbitrary change of RAM and status register) | digit lists; C66 for each of the two pictures along a session, `generate_image_if_ready` on a healthy bus (C68) |
| C93 | `true-frame-rate`: polling loops (with fuel; time is a function of the bus state), durations, statistics | induction over the loops; invariant of the fold that counts runs of a sorted list. Finding: the median of an even number. (The program does not compile at this commit: `CameraDriver` takes four generic arguments, it passes six.) |
| C94 | `raw_pixels_to_temperatures` over the reals | C55, then real algebra: the difference of fourth powers is `Ks_To (T⁴ - T_a-r)(T - x)/(1 + Ks_To (x - 273.15))` with the first estimate `x`, bounded twice; for a camera in binary32 together with C75 |
| C95 | the whole driver: EEPROM decoding, frame access and calculation, any arithmetic | the calibration decoded from two EEPROMs that agree on the sensor-wide words and on the pixel's words agrees on everything the pixel's calculation uses (`shared640_congr`, `shared641_congr`); frames read from two memories agree on the pixel and its companions (C55); then the calculation's congruence lemmas (C18) |
| C96 | the same, for all pixels at once | session invariants (caches equal the control register, calibration equals the EEPROM) make the driver state a function of memory and settings; then C95 for every pixel |
| C97 | the setting of C75, with explicit ranges (`Spec/Usual.lean`) for all documented inputs of a pixel | the relative errors of signal, sensitivity and radiation are bounded over the ranges, then C74's bound for typical scenes (1610, 3610, 12700), C75, and C94's 0.6 °C; the datasheets' worked examples of both cameras are in the range (`Props/Usual.lean`, `Props/Scene641.lean`) |
| C98 | sessions whose bus state is replaced arbitrarily between calls (`Spec/Interference.lean`: `Disturbed`), and what the calls show about the control register (`believed`) | induction over the session for the settings held by the driver; C66's image theorem generalised to the memory the driver takes the camera to have; a camera switched to the other pattern as example |
| C99 | any bus with a recorder; what its log says about each word of the camera (`Spec/Heard.lean`: `lastWord`, `AsHeard`), and a still camera (`cameraBus`) as the reference | the transactions of a frame read cover disjoint words, so that the frame is a piece of the memory heard; induction over the history for EEPROM and control register; the images of two cameras that agree are equal (C95); C66 on the still camera |
| C100 | the same in `Binary32` arithmetic | C99's replay, then C75 and C97 on the still camera |
| C101 | two images of which only what was heard is known (`Spec/Noise.lean`: `Imaged`, `DifferInPixels`) | C99 (C100 in binary32); differences of fourth powers and of the slope factor bound the change of the documented temperature (`object_step`) |
| C102 | strict mock that plays back a recording (`Spec/Replay.lean`: `playback`, `PlaysBack`) | simulation of every method, split by the transactions it makes; the bytes a failed read leaves in the pixel buffer are not in the recording, and are shown not to matter (as in C51); induction on the history |
| C103 | two images of any kind of which only what was heard is known (`Spec/Drift.lean`: `Taken`, `Drifted`) | the documented formulas use pixels, gain and sensor voltages only in ratios; C99 (C100 in binary32) |
| C104 | two raw images (`Spec/Drift.lean`: `SameReadings`, `rawDifference`) | subtraction of the documented signals; C99 (C100 in binary32) |
| C105 | all methods on a camera that measures between any two transactions (`Spec/Hold.lean`: `Runs`, `FreeRunning`, `InUse`) | invariant `Held` and RAM unchanged through every transaction; a recorder and C99's comparison with a still camera; counterexample with overwriting on |
| C106 | the same, for a camera whose measurements set the new-data flag (`Spec/Hold.lean`: `RunsFlagged`, `WritesStatus`) | invariant: the flag is set or the RAM is unchanged; counterexamples by evaluation in the kernel |
| C107 | the same, with the measurements counted (`Spec/Hold.lean`: `RunsCounted`, `Counting`, `Polled`) | invariant: images + (1 if the flag is set) ≤ measurements + (1 if it was set at the start), through every transaction of every call; for `synchronize`: flag set ⟹ a measurement has finished since the call |
| C108 | every function of the model, under two implementations of `F32Ops` on one type (`Spec/Libraries.lean`: `SameBasics`) | function by function: the second implementation only occurs where it agrees with the first, except in the two functions that take powers; thermal images by C97 and the triangle inequality |
| C109 | the driver on a camera that holds its memory behind a bus with any errors, where failed writes may have arrived (`Spec/Retry.lean`: `FaultyMemory`, `Retried`, `RetriedImage`, `RetriedNew`), against the same driver on a camera that holds still | a failed attempt leaves a state from which the undisturbed call has the same result as before (setting a field, resetting the flag and drawing an image are idempotent), a successful one does what the undisturbed one does; induction over the attempts |
| C110 | two drivers in use on two buses, cameras that differ in the words of the temperature ranges (`Spec/Ranges.lean`: `ranges640`, `SameBasic640`, `ranges641`) | the decoded calibrations differ only in corner temperatures, K_s_To and sensitivity corrections, of which the calculation uses one K_s_To; then as C95 |
| C111 | the setting of C97, pixels whose EEPROM word is 0 (`Spec/Broken.lean`) | C97 (its error bound admits sensitivities up to 2^16), and the documented temperature at a sensitivity of 1000 or more differs from that of the surroundings by less than 0.01 °C because the signal is bounded (`Props/Broken.lean`, with a concrete camera) |
| C112 | the setting of C75, MLX90641 pixels whose EEPROM values are 0; infinities and NaN of IEEE 754 (`Spec/Special.lean`: `Binary32Special`) | the compensated sensitivity is exactly 0, the denominator of the first estimate is exactly 0, and from then on nothing is finite (`Props/Silent.lean`; `Props/SilentWitness.lean`: pixel 3 of the example camera) |
| C113 | the setting of C75, pixels with signals below that of absolute zero (`Spec/Cold.lean`: `ColderThanZero`, `PixelInputs.UsuallyFrozen`); NaN of IEEE 754 (`Binary32NaN`) | the errors of C74 up to the argument of either root, which is then negative; its root is NaN, and what follows keeps it (`Props/Cold.lean`; `Props/ColdWitness.lean`: pixel 367 of the example camera with a raw value of -1400 or less, pixel 100 of that of the MLX90641 with -3000 or less) |
| C114 | all image calls of any driver (results included), the two conversions, and images as heard (`Taken` of C103); `NotBelowZero` (`Spec/Limits.lean`) | the constant's value by the nearest-number property of `lit`; its negative is representable and not above the exact difference, so no nearest number is below it (`Props/Limits.lean`) |
| C115 | images as heard (`Taken` of C103); infinities and NaN of IEEE 754 (`Binary32Lost`, `Binary32NaN`) | replay on a camera that holds still (C99), then each step after the division keeps what is not finite (`Props/Limits.lean`) |
| C116 | the example of the crate's documentation from construction to the contents of the buffer (`Model/Examples.lean`: `quickStart`; `sleep` an arbitrary change of RAM and status register that may depend on the frame rate) | the two pictures of C92 after a read of the control register; which pixels the pictures cover, from the chess board and the rows |
| C117 | the images of C101 and C104 (`Imaged`, `Taken`) of two frames that differ in pixels only; `Binary32Order` for raw images, reals for temperatures | what a made image was converted from (C115's characterization), then C77's conversions keep order; for temperatures the documented formula (C99) and strict monotonicity of the object temperature |
| C118 | two images (`Taken`) of one heard frame with different settings, over the reals | the documented values of both images (C99, C103), then the monotonicity of C90 and C91 in emissivity and radiation of the surroundings |

## Where the code deviates from its documentation

These properties are stated as what the code really does, and each theorem exhibits a concrete witness of the deviation.

* C08: writing back the I²C configuration register clears its reserved bits (`write_mask` is never used).
* C23: the V_DD difference can overflow an `i16`: panic in a checked build, off by 65536 otherwise.
* C24: the MLX90640 length check compares bytes with words: dumps of 831 to 1663 bytes panic instead of being rejected.
  C32: MLX90641 dumps shorter than 1280 bytes panic.
* C36: only 11 of the 16 bits of the MLX90641 offset average are used.
* C47: after a failed write of the control register the cached access pattern and resolution are those that were not
  written.
* C54: an image can be torn by a measurement that ends while it is read, and the new frame's flag is then lost. Data hold prevents this as long as overwriting is off (C105), which `synchronize` undoes. A torn image can be found out with `data_available` (C106), unless a call writes the status register: that can lose the flag of a measurement.
* C58: pixels marked as failed are computed like all others, contrary to the documentation.
* C59: the supply voltage uses `rho * (pix - vdd25)` where the datasheet has `rho * pix - vdd25`.
* C61: `alpha_PTAT` of the MLX90640 loses its two fractional bits (integer division).
* C66 also records what becomes of a failed MLX90640 pixel's parameters (unscaled alpha).
* C79: the mock camera slices its EEPROM write mask `[start..len]` instead of `[start..start + len]`: writes of one word to
  0x240D are not checked, to 0x240E and 0x240F panic. C81: its `set_data_available(false)` also clears bits 4 to 7.

## Not modelled

Formatting (`Debug`/`Display`) other than of errors and addresses, the private `EepromAddress` names (the parsers read in sequence; one of the
unused names, `CompensationPixelKv = 0x243` of the MLX90641, is a slip for 0x2432), embedded-hal trait plumbing, `Drop`, timing and the spin-loop
hint, memory layout, the `FrameRate`/`Duration` conversion other than its numeric value, signed zeros, the payloads of NaN, the
accuracy of `powf` and `powi` (except where a theorem names it as a hypothesis), integer types beyond their ranges, of the example programs the printing of numbers and messages, parsing of arguments other than the address, conversion of durations to frequencies and of the frame rate; benchmarks, test data.
Of the mock camera (`Model/Mock.lean`), the sharing of its contents by clones and what it does after a panic. `unsafe` code: there is none. Concurrency: a driver is owned by one thread (`&mut self`);
what other bus masters or the camera do between transactions is covered by the arbitrary bus.

## Trusted base

* Lean 4.33.0's kernel.
* Axioms: `propext`, `Classical.choice`, `Quot.sound` for all theorems in `MANIFEST.json`, except that
  `C08_reserved_bits_lost`, `C13_mlx90641_full_subpages`, `C16_addresses`, `C39_construction`, `C40_control_getters`,
  `C40_status_getters`, `C65_flagged_pixels`, `C76_i2c_setters`, `C81_update_frame`, `C81_set_data_available`, `C99_memory_exists` and the three of C72 do without `Classical.choice`. No axioms of my own, no compiled evaluation.
* My reading of the Rust source, tied to it only by the `file:line` citations on every definition of `Model/`. As a check of
  that reading, `tools/conformance.py` runs the model with Lean's `Float32` on the data of the crate's own tests: the
  decoded EEPROM of both cameras agrees with the expected values of the test suite, the temperatures of the Melexis example
  frames agree to 0.0006 °C, and the worked example of the MLX90641 datasheet to its printed precision.
* For C69 to C71, C74, C75 and the binary32 theorems built on them (C09, C57, C83, C94, C97, C100, C101, C103, C104, C108, C111, C112, C113, C114, C115, C117): that the platform's `f32` satisfies `Binary32` as described above. For C74 and C75, also that `powi` (for 3 and
  4) and `powf` (for 1/4) have the relative error that the theorem names; correctly rounded ones have 2⁻²⁴
  (`rounded_powers`). For C77 and C117, that it satisfies `Binary32Order` (`Spec/Order.lean`). For C112, that its infinities
  and NaN behave as in IEEE 754 and that powers and roots of zero are zero (`Binary32Special`, `Spec/Special.lean`). For C113, that NaN is
  carried on by the operations, and that the fourth root of a negative number is NaN (`Binary32NaN`, `Spec/Cold.lean`). For C114, besides
  some of these, that a finite fourth root is not negative (`Binary32Roots`); for C115, that zero times infinity is NaN and that the fourth power of an
  infinity or NaN is one (`Binary32Lost`, both in `Spec/Limits.lean`). The ones that each theorem needs are its arguments.

## Tests of the theorems against wrong programs

`seeded/LOG.jsonl` has one line per edit of the model: over 200 by hand (realistic bugs), the others generated
(every numeric literal, operator and enumeration constant of `Model/` is a candidate). `theorems_failed` are the theorems that no
longer compile; when that is a helper lemma in `Proofs/`, the theorems of `Props/` that rest on it cannot be built either.
