{"id": "C01", "title": "Checksum round trip", "statement": "For every 11-bit value d, add_checksum(d) succeeds, leaves the low eleven bits unchanged, and validate_checksum of the result returns Ok(d). For every word with any of the top five bits set add_checksum returns an error and never a codeword.", "quantifier": "every 16-bit word", "why_tests_cant": "the unit test runs only over the words of one datasheet EEPROM", "anchors": ["mlx9064x/src/mlx90641/hamming.rs::add_checksum", "mlx9064x/src/mlx90641/hamming.rs::validate_checksum"]}
{"id": "C02", "title": "Single-bit errors are always corrected", "statement": "For every 11-bit value d and every one of the sixteen bit positions, flipping that bit of add_checksum(d) still makes validate_checksum return Ok(d).", "quantifier": "every data value and every bit position", "why_tests_cant": "tests only sample the words of one EEPROM image", "anchors": ["mlx9064x/src/mlx90641/hamming.rs::validate_checksum"]}
{"id": "C03", "title": "Double-bit errors are always reported", "statement": "For every 11-bit value d and every pair of distinct bit positions, flipping both bits of add_checksum(d) makes validate_checksum return Err(Checksum(w)) carrying exactly the corrupted word w; it is never silently mis-corrected.", "quantifier": "every data value and every unordered pair of distinct bit positions", "why_tests_cant": "tests only sample the words of one EEPROM image", "anchors": ["mlx9064x/src/mlx90641/hamming.rs::validate_checksum"]}
{"id": "C04", "title": "Exact decoder characterisation", "statement": "validate_checksum(w) = Ok(d) exactly when w is within Hamming distance one of the codeword of d (so d is unique), and in every other case the result is Err(Checksum(w)).", "quantifier": "every 16-bit word w and every data value d", "why_tests_cant": "needs all 65536 words and a proof that no other word is accepted", "anchors": ["mlx9064x/src/mlx90641/hamming.rs::validate_checksum", "mlx9064x/src/mlx90641/hamming.rs::add_checksum"]}
{"id": "C05", "title": "Control register field laws", "statement": "For every control register value and every field (use_subpages, step_mode, data_hold, subpage_repeat, subpage, frame_rate, resolution, access_pattern): reading a field after setting it returns the value set, setting a field to the value just read changes nothing, the last of two sets wins, setting one field leaves every other field and every reserved bit untouched; no getter can panic.", "quantifier": "every 16-bit register value, every field, every field value", "why_tests_cant": "unit tests use a handful of literals", "anchors": ["mlx9064x/src/register.rs::ControlRegister"]}
{"id": "C06", "title": "Status register operations touch only their own bit", "statement": "reset_new_data, set_overwrite_enabled and set_start_measurement change exactly one bit of the status register and the getters read exactly the documented bits; in particular the read-only subpage bits and all reserved bits survive.", "quantifier": "every 16-bit status value", "why_tests_cant": "unit tests use a handful of literals", "anchors": ["mlx9064x/src/register.rs::StatusRegister"]}
{"id": "C07", "title": "Register byte encoding", "statement": "Converting status/control register bytes into a register and back yields the same two bytes, big-endian; the conversion panics exactly on buffers shorter than two bytes and ignores bytes beyond the second.", "quantifier": "every byte buffer", "why_tests_cant": "tests use literals", "anchors": ["mlx9064x/src/register.rs::StatusRegister::from", "mlx9064x/src/register.rs::ControlRegister::from"]}
{"id": "C08", "title": "I2C configuration register round trip", "statement": "Reading the I2C configuration register and writing the value back keeps the three configuration bits (fast mode plus, threshold, SDA current limiter) and clears every other bit; the register is unchanged exactly when its reserved bits were already zero. In particular reserved bits are not preserved, although Register::write_mask exists for that purpose (a concrete value is exhibited).", "quantifier": "every 16-bit register value", "why_tests_cant": "a round-trip test on default values never sees a reserved bit set", "anchors": ["mlx9064x/src/register.rs::I2cRegister", "mlx9064x/src/register.rs::Register::write_mask"]}
{"id": "C09", "title": "Frame rate and resolution conversions", "statement": "The raw, u8 and f32 conversions of FrameRate and Resolution are mutually inverse on their domains and return an error for every other input; the f32 value of a frame rate is 2^(raw-1) Hz; the per-frame Duration is the exact reciprocal.", "quantifier": "every raw value, every u8, every f32 (NaN and infinities included)", "why_tests_cant": "error branches cover all remaining inputs", "anchors": ["mlx9064x/src/register.rs::FrameRate", "mlx9064x/src/register.rs::Resolution"]}
{"id": "C10", "title": "Register equality means equal documented fields", "statement": "Two status (control) registers compare equal exactly when all documented getters return equal results; reserved bits never influence the comparison.", "quantifier": "every pair of 16-bit values", "why_tests_cant": "a quantification over pairs of registers", "anchors": ["mlx9064x/src/register.rs::StatusRegister::eq", "mlx9064x/src/register.rs::ControlRegister::eq"]}
{"id": "C11", "title": "Sign extension helper", "statement": "i16_from_bits on two bytes with 1 <= n <= 16 bits returns the two's-complement value of the low n bits of the big-endian word, on one byte (n <= 8) the same for the byte; the result always lies in [-2^(n-1), 2^(n-1)).", "quantifier": "every word, every bit width", "why_tests_cant": "tests use four literals", "anchors": ["mlx9064x/src/util.rs::i16_from_bits"]}
{"id": "C12", "title": "MLX90640 subpages partition the image", "statement": "For each access pattern every one of the 768 pixels belongs to exactly one of the two subpages: chess assigns by parity of row+column, interleave by parity of the row; each subpage has 384 pixels; the iterator yields exactly 768 values.", "quantifier": "every pixel index, both patterns", "why_tests_cant": "needs every pixel", "anchors": ["mlx9064x/src/mlx90640/mod.rs::Mlx90640PixelSubpage"]}
{"id": "C13", "title": "MLX90641 subpages each cover the whole image", "statement": "For both subpages and both access patterns all 192 pixels are selected and the iterator is exactly 192 long.", "quantifier": "both subpages, both patterns, every pixel", "why_tests_cant": "needs every pixel", "anchors": ["mlx9064x/src/mlx90641/mod.rs::Mlx90641::pixels_in_subpage"]}
{"id": "C14", "title": "MLX90640 RAM ranges", "statement": "Both access patterns yield at most HEIGHT ranges whose address arithmetic never overflows; the ranges stay inside pixel RAM and inside the image buffer, are pairwise disjoint in the buffer, cover every pixel of the subpage, and buffer bytes 2i,2i+1 are always filled from camera address 0x0400+i.", "quantifier": "both subpages, both patterns, every pixel and every byte", "why_tests_cant": "tests check only the first four ranges", "anchors": ["mlx9064x/src/mlx90640/mod.rs::Mlx90640Pixels"]}
{"id": "C15", "title": "MLX90641 RAM ranges", "statement": "The six ranges yielded for a subpage cover all 384 buffer bytes without overlap, and pixel i of subpage s is read from address 0x0400 + 64*(i/32) + 32*s + i%32; address arithmetic never overflows.", "quantifier": "both subpages, every pixel", "why_tests_cant": "the repository has no test of these ranges", "anchors": ["mlx9064x/src/mlx90641/mod.rs::SubpageInterleave"]}
{"id": "C16", "title": "read_ram issues exactly the documented reads", "statement": "On any bus, read_ram issues the pixel range reads in order followed by the reads of T_a_VBE, T_a_PTAT, V_DD, gain and the compensation pixel of the requested subpage, each a single combined transaction; it stops at the first failing transaction and returns that error, and never writes.", "quantifier": "every bus behaviour including errors at any transaction", "why_tests_cant": "fault position and bus behaviour are unbounded", "anchors": ["mlx9064x/src/common.rs::read_ram", "mlx9064x/src/calculations.rs::RamData::from_i2c"]}
{"id": "C17", "title": "One-pass conversion equals two-pass conversion", "statement": "raw_pixels_to_temperatures leaves the same destination and returns the same ambient temperature as raw_pixels_to_ir_data followed by raw_ir_to_temperatures with the same arguments, bit for bit, whatever the float semantics.", "quantifier": "every calibration, RAM contents, buffer and destination length", "why_tests_cant": "floats and arrays make the input space unbounded; tests compare one frame", "anchors": ["mlx9064x/src/calculations.rs::raw_pixels_to_temperatures", "mlx9064x/src/calculations.rs::raw_pixels_to_ir_data", "mlx9064x/src/calculations.rs::raw_ir_to_temperatures"]}
{"id": "C18", "title": "Only pixels of the requested subpage are written", "statement": "Each conversion function keeps the length of the destination and every element whose pixel is not selected (or lies beyond any of the inputs) keeps its old value; each selected element depends only on that pixel's own raw value and calibration, and on the frame-wide values.", "quantifier": "every destination slice and selection sequence", "why_tests_cant": "quantifies over all slices", "anchors": ["mlx9064x/src/calculations.rs::raw_pixels_to_ir_data", "mlx9064x/src/calculations.rs::raw_pixels_to_temperatures", "mlx9064x/src/calculations.rs::raw_ir_to_temperatures"]}
{"id": "C19", "title": "Two subpages make a full image", "statement": "For the MLX90640, converting both subpages into one destination overwrites every pixel, and the two conversions commute: the final image does not depend on the order or on the initial destination contents.", "quantifier": "every calibration, two frames, any initial destination", "why_tests_cant": "quantifies over all frames", "anchors": ["mlx9064x/src/calculations.rs::raw_pixels_to_temperatures", "mlx9064x/src/mlx90640/mod.rs::Mlx90640PixelSubpage"]}
{"id": "C20", "title": "Emissivity one ignores the reflected temperature", "statement": "When the emissivity compares equal to 1, the produced temperatures do not depend on the reflected temperature, given or defaulted.", "quantifier": "every pair of reflected temperatures, every frame", "why_tests_cant": "quantifies over floats", "anchors": ["mlx9064x/src/calculations.rs::t_ar"]}
{"id": "C21", "title": "Ambient temperature is independent of pixels, emissivity and subpage", "statement": "The returned ambient temperature depends only on V_DD, T_a_PTAT and T_a_VBE and the calibration constants; it is the same for the raw and the temperature conversion.", "quantifier": "every frame", "why_tests_cant": "quantifies over all inputs", "anchors": ["mlx9064x/src/calculations.rs::CommonIrData::new"]}
{"id": "C22", "title": "Without a gradient coefficient the compensation pixel is ignored", "statement": "If the calibration has no temperature gradient coefficient, the output does not depend on the compensation pixel RAM value nor on any compensation-pixel calibration constant.", "quantifier": "every frame and calibration", "why_tests_cant": "quantifies over all inputs", "anchors": ["mlx9064x/src/calculations.rs::raw_pixels_to_temperatures"]}
{"id": "C23", "title": "Supply voltage difference: when it is defined", "statement": "delta_v is the documented quotient (v_dd_pixel - v_dd_25)/k_v_dd exactly when the difference fits an i16; otherwise a checked build panics and a release build divides a value that is off by 65536. The overflow is reachable: for every MLX90640 EEPROM accepted by from_data the reading 32767 makes every conversion panic in a checked build.", "quantifier": "every V_DD word, every EEPROM", "why_tests_cant": "needs an extreme reading", "anchors": ["mlx9064x/src/calculations.rs::delta_v"]}
{"id": "C24", "title": "MLX90640 EEPROM dump length", "statement": "from_data returns Err(Other(..)) exactly for the buffers shorter than 831 bytes, panics for every buffer of 831..1663 bytes, and for 1664 bytes or more never fails because of the length and ignores everything after byte 1663. (The length check compares a number of bytes with a number of words, so a dump between half and full size is not rejected with an error.)", "quantifier": "every buffer length and contents", "why_tests_cant": "needs every length", "anchors": ["mlx9064x/src/mlx90640/eeprom.rs::Mlx90640Calibration::from_data"]}
{"id": "C25", "title": "MLX90640 scalar parameters decode per the datasheet", "statement": "For every full-length EEPROM image accepted by from_data, each scalar calibration parameter (resolution, gain, PTAT, V_DD, K_s_ta, TGC, corner temperatures, K_s_to, compensation-pixel values) equals the datasheet formula applied to the documented word.", "quantifier": "every 1664+ byte image", "why_tests_cant": "2^13312 images", "anchors": ["mlx9064x/src/mlx90640/eeprom.rs::Mlx90640Calibration::from_data"]}
{"id": "C26", "title": "MLX90640 pixel offsets decode per the datasheet", "statement": "For every full-length image, pixel (r,c)'s offset equals average + row_r*2^rs + col_c*2^cs + remainder*2^ms with every term taken from the documented nibble, whenever these sums fit in 16 bits; the checked build panics exactly when a partial sum does not.", "quantifier": "every image, every pixel", "why_tests_cant": "768 pixels and overflow corners", "anchors": ["mlx9064x/src/mlx90640/eeprom.rs::Mlx90640Calibration::calculate_bulk_pixel_calibration", "mlx9064x/src/mlx90640/eeprom.rs::Mlx90640Calibration::from_data"]}
{"id": "C27", "title": "MLX90640 failed and outlier flags", "statement": "A pixel is flagged failed exactly when its EEPROM word is zero and outlier exactly when bit 0 is set; no pixel is both.", "quantifier": "every image, every pixel", "why_tests_cant": "768 pixels, all words", "anchors": ["mlx9064x/src/mlx90640/eeprom.rs::Mlx90640Calibration::from_data"]}
{"id": "C28", "title": "Per-pixel iterators yield every pixel", "statement": "All per-pixel calibration sequences (offset, alpha, K_v, K_ta, access pattern compensation, failed, outlier) of an accepted calibration have exactly NUM_PIXELS items for each subpage and access pattern, as CalibrationData requires.", "quantifier": "every accepted EEPROM, both cameras", "why_tests_cant": "quantifies over images", "anchors": ["mlx9064x/src/mlx90640/eeprom.rs", "mlx9064x/src/mlx90641/eeprom.rs", "mlx9064x/src/common.rs::CalibrationData"]}
{"id": "C29", "title": "Range correction coefficients", "statement": "alpha_correction is 1 at the camera's basic range and otherwise the documented product of (1 + K_s_to*(CT difference)) factors (reciprocals below the basic range); the computation never indexes out of bounds nor overflows for either camera.", "quantifier": "every EEPROM image, every range index", "why_tests_cant": "recursion over arbitrary values", "anchors": ["mlx9064x/src/common.rs::alpha_corr_n", "mlx9064x/src/common.rs::alpha_correction_coefficients"]}
{"id": "C30", "title": "MLX90640 K_ta and alpha per pixel", "statement": "For every image and non-failed pixel, K_ta = (K_ta_rc + rem*2^scale2)/2^scale1 and alpha = (average+row+col+rem*2^s)/2^alpha_scale with the documented bit fields, where K_ta_rc and K_v follow the row/column parity table.", "quantifier": "every image, every pixel", "why_tests_cant": "768 pixels", "anchors": ["mlx9064x/src/mlx90640/eeprom.rs::Mlx90640Calibration::from_data", "mlx9064x/src/mlx90640/eeprom.rs::ChessboardIter"]}
{"id": "C31", "title": "Interleaved-mode compensation pattern", "statement": "In interleaved mode the compensation added to pixel i equals the datasheet's IL_CHESS formula for that pixel for every EEPROM word; in chess mode it is absent; the compensation pixel gets IL_CHESS_1 only for subpage 1 in interleaved mode.", "quantifier": "every EEPROM word, every pixel", "why_tests_cant": "the simplified pattern must agree with the formula everywhere", "anchors": ["mlx9064x/src/mlx90640/eeprom.rs::PixelAccessPatternCompensation", "mlx9064x/src/mlx90640/eeprom.rs::Mlx90640Calibration::get_access_pattern_corrections"]}
{"id": "C32", "title": "MLX90641 buffer length behaviour", "statement": "from_data accepts no buffer shorter than a full EEPROM. When the words a buffer contains are correctable, it panics below 1280 bytes, returns Err(Other(..)) from there to 1663 bytes and a calibration from 1664 bytes on, except that a build with overflow checks panics exactly when an i16 computation for the offsets from the words contained does not fit. Bytes beyond the first 1664 are ignored.", "quantifier": "every buffer of every length, both builds", "why_tests_cant": "needs every length", "anchors": ["mlx9064x/src/mlx90641/eeprom.rs::Mlx90641Calibration::from_data"]}
{"id": "C33", "title": "MLX90641 calibration survives one flipped bit per word", "statement": "If two EEPROM images differ, in every 16-bit word, from the same valid codewords by at most one bit, from_data returns identical results for both.", "quantifier": "every image, every independent choice of at most one flipped bit in each of the 832 words", "why_tests_cant": "17^832 corruption patterns", "anchors": ["mlx9064x/src/mlx90641/eeprom.rs::Mlx90641Calibration::from_data", "mlx9064x/src/mlx90641/hamming.rs::validate_checksum"]}
{"id": "C34", "title": "MLX90641 uncorrectable words are reported", "statement": "For buffers of any length: if a word that calibration decoding reads is not within one bit of a codeword, from_data returns Err(Checksum(w)) for the first such word in reading order, except that a build with overflow checks panics exactly when an i16 computation for the offsets from the words read before it does not fit; it never returns a calibration.", "quantifier": "every image, every corrupted position, both builds", "why_tests_cant": "positions times patterns", "anchors": ["mlx9064x/src/mlx90641/eeprom.rs::Mlx90641Calibration::from_data"]}
{"id": "C35", "title": "MLX90641 scalar parameters decode per the datasheet", "statement": "For every image accepted by from_data each scalar parameter equals the datasheet formula applied to the decoded 11-bit data of the documented words.", "quantifier": "every accepted image", "why_tests_cant": "2^9152 images", "anchors": ["mlx9064x/src/mlx90641/eeprom.rs::Mlx90641Calibration::from_data"]}
{"id": "C36", "title": "MLX90641 offset average", "statement": "The offset average used by from_data is the sign-extended low 11 bits of the 16-bit value combined from the two documented words; it equals the documented two's-complement 16-bit value exactly when that value is in -1024..1023, and EEPROM images for which it differs exist.", "quantifier": "every pair of words", "why_tests_cant": "the datasheet example happens to fit in 11 bits", "anchors": ["mlx9064x/src/mlx90641/eeprom.rs::PerPixelCalibration::from_data"]}
{"id": "C37", "title": "MLX90641 per-pixel parameters", "statement": "For every accepted image and every pixel, offset_s = average + raw_s*2^scale, alpha = raw/2047*ref(row pair), K_ta and K_v = (raw*2^scale2 + avg)/2^scale1, and a pixel is failed exactly when its four words decode to zero, in which case all its parameters are zero.", "quantifier": "every accepted image, every pixel", "why_tests_cant": "192 pixels times all images", "anchors": ["mlx9064x/src/mlx90641/eeprom.rs::PerPixelCalibration::from_data"]}
{"id": "C38", "title": "Irrelevant EEPROM words do not affect calibration", "statement": "The first sixteen words (device options and identifiers) never influence either calibration; for the MLX90641 neither do the two reserved words 0x2413 and 0x2414 nor anything beyond the EEPROM.", "quantifier": "every pair of images agreeing elsewhere", "why_tests_cant": "two-run property", "anchors": ["mlx9064x/src/mlx90640/eeprom.rs::Mlx90640Calibration::from_data", "mlx9064x/src/mlx90641/eeprom.rs::Mlx90641Calibration::from_data"]}
{"id": "C39", "title": "Driver construction", "statement": "new() first reads the 1664 EEPROM bytes at 0x2400 and then the control register, nothing else and no writes; every bus error and calibration error is returned unchanged; on success the cached access pattern and resolution correction come from the control word read, emissivity from the calibration or 1, no ambient or reflected temperature is reported.", "quantifier": "every bus behaviour", "why_tests_cant": "fault positions and device contents unbounded", "anchors": ["mlx9064x/src/driver.rs::CameraDriver::new", "mlx9064x/src/driver.rs::CameraDriver::new_with_calibration"]}
{"id": "C40", "title": "Getters perform exactly one register read", "statement": "Every register getter of the driver performs exactly one combined transaction reading two bytes of its register, returns the documented field of what the bus returned, propagates a bus error, and writes nothing.", "quantifier": "every bus behaviour, every getter", "why_tests_cant": "bus behaviour unbounded", "anchors": ["mlx9064x/src/driver.rs::CameraDriver"]}
{"id": "C41", "title": "Setters are minimal read-modify-writes", "statement": "Every register setter reads the register once; if the field already has the value it writes nothing; otherwise it performs exactly one 4-byte write in which only that field differs from the value read. On a device that stores writes, the getter then returns the new value and a second call writes nothing.", "quantifier": "every bus behaviour, every field and value", "why_tests_cant": "bus behaviour unbounded", "anchors": ["mlx9064x/src/driver.rs::set_register_field"]}
{"id": "C42", "title": "Data-available flag handling", "statement": "data_available returns Some(subpage) exactly when the status word read has bit 3 set, with the subpage from bit 0; reset_data_available writes back the word read with only bit 3 cleared.", "quantifier": "every bus behaviour", "why_tests_cant": "bus behaviour unbounded", "anchors": ["mlx9064x/src/driver.rs::CameraDriver::data_available", "mlx9064x/src/driver.rs::CameraDriver::reset_data_available"]}
{"id": "C43", "title": "Not ready means no effect", "statement": "If the status word read has no new data, generate_image_if_ready returns Ok(false) after exactly one transaction and leaves destination, ambient temperature and every other driver setting unchanged.", "quantifier": "every bus behaviour, every destination", "why_tests_cant": "bus behaviour unbounded", "anchors": ["mlx9064x/src/driver.rs::CameraDriver::generate_image_if_ready"]}
{"id": "C44", "title": "Ready frame is converted then acknowledged", "statement": "If the status word read has new data and every transaction succeeds, generate_image_if_ready returns Ok(true) (unless the build checks for overflow and the supply voltage difference does not fit 16 bits, see C63), the destination is the conversion of the RAM contents read for the subpage named in that status word, ambient temperature is updated, and its single write is the last transaction and writes the status word read with only bit 3 cleared.", "quantifier": "every bus behaviour, every destination", "why_tests_cant": "bus behaviour unbounded", "anchors": ["mlx9064x/src/driver.rs::CameraDriver::generate_image_if_ready"]}
{"id": "C45", "title": "Failures of image generation", "statement": "If any read fails, the destination and the ambient temperature keep their values and the new-data flag is not acknowledged (no write is issued). If only the final acknowledging write fails the error is returned although destination and ambient temperature are already updated.", "quantifier": "every bus behaviour, every failing transaction", "why_tests_cant": "crash point quantification", "anchors": ["mlx9064x/src/driver.rs::CameraDriver::generate_image_if_ready", "mlx9064x/src/driver.rs::CameraDriver::generate_image_subpage_to"]}
{"id": "C46", "title": "Unconditional image generation never writes", "statement": "generate_image_to, generate_image_subpage_to and generate_raw_image_subpage_to never issue a write, on success or failure.", "quantifier": "every bus behaviour", "why_tests_cant": "bus behaviour unbounded", "anchors": ["mlx9064x/src/driver.rs::CameraDriver::generate_image_to"]}
{"id": "C47", "title": "Cached settings agree with the camera", "statement": "The access pattern and resolution correction used for images are those of the camera's control register after construction and after any sequence of driver calls in which no control register write failed; after a failed control write they may differ (an example is exhibited), and the next successful control register getter or setter restores the agreement. The same holds while the camera goes on measuring between the calls, and no call or measurement ever changes anything in the camera but its RAM, its status register and its control register.", "quantifier": "every sequence of driver calls and camera measurements, every device error schedule", "why_tests_cant": "histories are unbounded", "anchors": ["mlx9064x/src/driver.rs::CameraDriver::update_control_register", "mlx9064x/src/driver.rs::CameraDriver::set_control_register"]}
{"id": "C48", "title": "synchronize waits for fresh data", "statement": "synchronize discards the old flag: after reading the status it issues exactly one write with new_data cleared, overwrite and start set and all other bits preserved, then polls; it returns Ok only after a poll read new_data set after that write, performs at least one poll, and returns the first bus error. Once its write has succeeded it returns if and only if some poll fails or reads new data, at the first such poll; with a camera that finishes no measurement it never returns.", "quantifier": "every bus behaviour, any number of polls", "why_tests_cant": "unbounded waiting", "anchors": ["mlx9064x/src/driver.rs::CameraDriver::synchronize"]}
{"id": "C49", "title": "Emissivity and temperature settings", "statement": "override_emissivity/use_default_emissivity/set_reflected_temperature are local: no bus traffic, the getters return the last set value, use_default restores the calibration value or 1; ambient_temperature is None until the first image is made and afterwards the value of the frame of the last one, over any sequence of calls (an image whose acknowledging write fails counts as made).", "quantifier": "every call sequence", "why_tests_cant": "histories are unbounded", "anchors": ["mlx9064x/src/driver.rs::CameraDriver"]}
{"id": "C50", "title": "The driver only ever writes the two writable registers", "statement": "Over any sequence of driver calls on any bus, each write is a 4-byte message to register 0x8000 or 0x800D; EEPROM and RAM are never written.", "quantifier": "every call sequence and bus behaviour", "why_tests_cant": "histories are unbounded", "anchors": ["mlx9064x/src/driver.rs::CameraDriver", "mlx9064x/src/register.rs::ToI2C"]}
{"id": "C51", "title": "No stale pixels", "statement": "A generated image never depends on the contents the pixel buffer had before the call (from earlier frames or other subpages), for both cameras and both access patterns.", "quantifier": "every history, every device", "why_tests_cant": "stale data needs particular histories", "anchors": ["mlx9064x/src/driver.rs::CameraDriver::generate_image_subpage_to", "mlx9064x/src/common.rs::read_ram"]}
{"id": "C52", "title": "Reserved register bits survive driver writes", "statement": "Every write issued by a driver method equals, outside the documented writable bits, the word most recently read from that register within the same call.", "quantifier": "every call sequence and bus behaviour", "why_tests_cant": "histories are unbounded", "anchors": ["mlx9064x/src/driver.rs::CameraDriver"]}
{"id": "C53", "title": "Only the configured I2C address is used", "statement": "All transactions of a driver, from construction on, address the I2C address given to the constructor.", "quantifier": "every call sequence and bus behaviour", "why_tests_cant": "histories are unbounded", "anchors": ["mlx9064x/src/driver.rs::CameraDriver"]}
{"id": "C54", "title": "An acknowledged frame is a single frame", "statement": "When generate_image_if_ready returns true and the camera's memory did not change during the call, memory named a new frame when the call began, the image is the conversion of exactly that frame and only its new-data flag is cleared. With a camera that finishes a measurement during the call the image can be that of neither frame and the second frame's flag is lost (an example is exhibited).", "quantifier": "every schedule of camera updates between transactions", "why_tests_cant": "interleavings with the camera", "anchors": ["mlx9064x/src/driver.rs::CameraDriver::generate_image_if_ready"]}
{"id": "C55", "title": "End to end pixel temperature", "statement": "On a device whose memory does not change during the call, generate_image_subpage_to stores in element i (i in the subpage) the per-pixel formula applied to the RAM word of pixel i of that subpage, its calibration constants, and the frame-wide values computed from the RAM words at the documented addresses; other elements are unchanged.", "quantifier": "every memory contents, calibration, destination", "why_tests_cant": "composition over all layers", "anchors": ["mlx9064x/src/driver.rs::CameraDriver::generate_image_subpage_to", "mlx9064x/src/calculations.rs::raw_pixels_to_temperatures", "mlx9064x/src/common.rs::read_ram"]}
{"id": "C56", "title": "Temperature formula inverts the radiation law", "statement": "In real arithmetic, if the compensated IR signal is alpha_comp*(1 + K_s_to*T_est)*(T_o^4 - T_ar) with the first-order estimate T_est used by the datasheet, per_pixel_temperature returns T_o; zero signal with emissivity 1 returns the ambient temperature.", "quantifier": "every real-valued input in the physical domain", "why_tests_cant": "continuous domain", "anchors": ["mlx9064x/src/calculations.rs::per_pixel_temperature", "mlx9064x/src/calculations.rs::t_ar"]}
{"id": "C57", "title": "Resolution correction", "statement": "resolution_correction(calibrated, current) is 2^(calibrated-current) for all sixteen pairs, so it is 1 for equal resolutions and multiplicative along chains; the integer subtraction never overflows.", "quantifier": "every pair and triple of resolutions", "why_tests_cant": "algebraic law", "anchors": ["mlx9064x/src/mlx90640/mod.rs::Mlx90640::resolution_correction", "mlx9064x/src/mlx90641/mod.rs::Mlx90641::resolution_correction"]}
{"id": "C58", "title": "Failed pixels are not skipped", "statement": "The failed and outlier flags of a calibration have no influence on any conversion: the output is the same whatever the flags, so pixels reported by failed_pixels() are overwritten like any other (contrary to the documentation of CalibrationData::failed_pixels; an example is exhibited).", "quantifier": "every calibration and frame", "why_tests_cant": "needs a calibration with failed pixels", "anchors": ["mlx9064x/src/common.rs::CalibrationData::failed_pixels", "mlx9064x/src/calculations.rs::raw_pixels_to_temperatures"]}
{"id": "C59", "title": "Supply voltage versus the datasheet formula", "statement": "With resolution correction r, the supply voltage computed is r*(V_DD_pix - V_DD_25)/K_Vdd + V_DD_0; it differs from the datasheet's (r*V_DD_pix - V_DD_25)/K_Vdd + V_DD_0 by exactly (r-1)*V_DD_25/K_Vdd, so they agree exactly when r = 1 or V_DD_25 = 0; with a typical calibration and a changed resolution the error is about 2 V.", "quantifier": "every calibration, resolution correction and V_DD reading, in exact arithmetic", "why_tests_cant": "the project's tests only use the default resolution, where the difference vanishes; the claim is about all readings and calibrations", "anchors": ["mlx9064x/src/calculations.rs::CommonIrData::new", "mlx9064x/src/calculations.rs::delta_v"]}
{"id": "C60", "title": "The driver only interacts with the world through bus transactions", "statement": "Attaching a recorder that logs every I2C transaction to the bus changes neither the outcome of any driver call nor the driver or device afterwards, for single calls and for whole histories.", "quantifier": "every bus, device state, driver state and sequence of calls", "why_tests_cant": "quantifies over all buses and histories; it justifies reading the properties about recorded traffic as properties of the unrecorded driver", "anchors": ["mlx9064x/src/driver.rs::CameraDriver"]}
{"id": "C61", "title": "MLX90640 PTAT sensitivity loses its fraction", "statement": "alpha_ptat of an accepted MLX90640 EEPROM equals the documented EE[0x2410][15:12]/2^2 + 8 exactly when the nibble is a multiple of four; otherwise it is smaller by the dropped fraction (a quarter, a half or three quarters).", "quantifier": "every accepted image", "why_tests_cant": "The only EEPROM images in the tests have nibble 4, for which the integer division is exact; the difference appears for 12 of the 16 nibbles.", "anchors": ["mlx9064x/src/mlx90640/eeprom.rs::Mlx90640Calibration::from_data"]}
{"id": "C62", "title": "Overflow checks only ever turn a result into a panic", "statement": "Built with overflow checks (debug profile) and without (release profile), the crate behaves identically except that the checked build may panic: for every EEPROM dump, every frame, every bus and every history of driver calls, either some call panics with checks, or all outcomes, destination slices, driver states and bus effects are equal in the two builds. Calls that make no image never differ.", "quantifier": "all EEPROM byte strings, calibrations, frames, settings, buses (including failing ones), and finite histories of public driver calls", "why_tests_cant": "tests run under one profile at a time and on a handful of inputs; the claim compares two builds on every input and history", "anchors": ["mlx9064x/src/mlx90640/eeprom.rs:from_data", "mlx9064x/src/mlx90641/eeprom.rs:from_data", "mlx9064x/src/calculations.rs", "mlx9064x/src/driver.rs:CameraDriver"]}
{"id": "C63", "title": "The only panic of a constructed driver is a supply voltage overflow", "statement": "A call on a driver made by one of the crate's constructors panics exactly when the crate was built with overflow checks, the call makes an image, every bus transaction of the call succeeded, and the V_DD word received differs from the calibration's reference value by more than a 16-bit signed integer. Without overflow checks neither construction nor any call ever panics, whatever the bus returns.", "quantifier": "all buses, all EEPROM and RAM contents, both cameras, all histories of calls", "why_tests_cant": "absence of panics over every bus response and history cannot be sampled; the exact trigger is a relation between an EEPROM word and a RAM word", "anchors": ["mlx9064x/src/calculations.rs:delta_v", "mlx9064x/src/driver.rs:CameraDriver", "mlx9064x/src/util.rs"]}
{"id": "C64", "title": "Every bus error is reported and no other error exists", "statement": "Whatever the bus does and whatever was called before: when a driver call returns an error, it is the error of the last transaction the call performed and all earlier ones succeeded; when it returns no error all of its transactions succeeded. So errors are neither swallowed nor invented (no calibration, address or decoding error after construction), and nothing is transmitted after a failed transaction.", "quantifier": "all buses, all histories of calls, all calls, all failure points", "why_tests_cant": "the number of failure points is unbounded (every transaction of every call after every history)", "anchors": ["mlx9064x/src/driver.rs:CameraDriver", "mlx9064x/src/error.rs:Error"]}
{"id": "C65", "title": "Flagged pixel iterators list exactly the flagged pixels", "statement": "Iterating over the flagged pixels of a set of pixel flags yields, in increasing order and without repetition, exactly the indices of the pixels whose flag is set, and `any` is true exactly when there is one. For the failed-pixel and outlier sets of an accepted calibration these are exactly the pixels the EEPROM marks.", "quantifier": "all flag lists of any length; all accepted MLX90640 and MLX90641 EEPROM images", "why_tests_cant": "the tests only look at images without flagged pixels; the claim is about every subset of pixels", "anchors": ["mlx9064x/src/common.rs::FlaggedPixels", "mlx9064x/src/mlx90640/eeprom.rs::failed_pixels", "mlx9064x/src/mlx90641/eeprom.rs::failed_pixels"]}
{"id": "C66", "title": "From camera memory to temperatures", "statement": "For a camera whose memory is only changed by writes and, between calls, by its measurements, on a bus that may fail at any time: construct a driver, perform any calls (none of which failed to write the control register) while the camera measures at will between them, then make an image. Whenever it succeeds, every measured pixel of the subpage is the documented temperature (or signal) as a function of nothing but the camera's EEPROM, RAM and control register and the user's emissivity and reflected temperature settings, every other element of the destination keeps its value, and the ambient temperature is the documented one. The whole calibration of an accepted EEPROM is given by a table of formulas.", "quantifier": "all EEPROM contents whose documented sums fit 16 bits (for the MLX90641 also with up to one wrong bit per word), all RAM and register contents, all failure patterns of the bus, all histories of calls and measurements, both subpages, all four image methods, all destinations; in exact arithmetic", "why_tests_cant": "the tests compare a handful of pixels for a single EEPROM and a single frame", "anchors": ["mlx9064x/src/driver.rs::CameraDriver", "mlx9064x/src/calculations.rs", "mlx9064x/src/mlx90640/eeprom.rs", "mlx9064x/src/mlx90641/eeprom.rs"]}
{"id": "C67", "title": "Every access is to documented memory", "statement": "Over any history of calls, on any bus, a driver talks only to the camera at its own I2C address; it reads only the status register, the control register (one word each) and whole words inside the camera's RAM, and it writes only single words to the status and control registers. From construction on, the only other access is the one read of the 832 EEPROM words. No call ever writes the EEPROM, reads past the end of RAM or touches an undocumented address.", "quantifier": "all buses including failing ones, all histories of calls, both camera models, every transaction including those of calls that fail", "why_tests_cant": "the mock only rejects illegal accesses on the call sequences the tests happen to make", "anchors": ["mlx9064x/src/driver.rs::CameraDriver", "mlx9064x/src/register.rs", "mlx9064x/src/mlx90640/address.rs", "mlx9064x/src/mlx90641/address.rs"]}
{"id": "C68", "title": "A healthy camera works", "statement": "On a bus that never fails a documented access (it may refuse writes that would change reserved register bits) and with a camera whose memory is only changed by writes and, between calls, by its measurements, construction succeeds exactly when the EEPROM is readable as documented (in a checked build: and its sums fit 16 bits), and from then on every call succeeds: no method returns an error or panics, whatever the camera's RAM and registers hold at that time (in a checked build: provided the supply voltage difference of every frame fits 16 bits).", "quantifier": "all memory contents, all sequences of calls and measurements, both camera models, both overflow modes", "why_tests_cant": "liveness over every memory content and every call history", "anchors": ["mlx9064x/src/driver.rs::CameraDriver", "mlx9064x/src/calculations.rs"]}
{"id": "C69", "title": "EEPROM decoding is exact in binary32", "statement": "Computing in IEEE 754 binary32 (round to nearest), decoding an EEPROM dump introduces no rounding error: every parameter of an accepted, regular MLX90640 dump is exactly the documented real number (the constant 3.3 V excepted, which is the nearest binary32 number), and so is every parameter of an MLX90641 dump with moderate scales, except for the pixel sensitivities, which involve a division by 2047 and are within a relative error of 2^-22. Intermediate results neither overflow nor become NaN.", "quantifier": "all EEPROM dumps (regular, for the MLX90641 with moderate scale exponents), both overflow modes, every arithmetic that satisfies IEEE 754 binary32", "why_tests_cant": "exactness has to hold for every combination of EEPROM words and scales", "anchors": ["mlx9064x/src/mlx90640/eeprom.rs::Mlx90640Calibration::from_data", "mlx9064x/src/mlx90641/eeprom.rs::Mlx90641Calibration::from_data"]}
{"id": "C70", "title": "Supply voltage and ambient temperature are accurate in binary32", "statement": "For every regular EEPROM and all plausible readings (no division by zero, positive PTAT, non-negative V_BE, supply voltage influence on the PTAT voltage at most one half), the supply voltage computed in binary32 is within (|rho*dV| + 3.3)/2^22 V of the documented formula, and the ambient temperature, also the one returned with an image, is within (|V_PTAT/K_T| + |T_a| + 50)/2^20 degrees of it; both are finite.", "quantifier": "all EEPROM dumps (for the MLX90641 with moderate scale exponents) and readings, both cameras, all resolutions, every arithmetic that satisfies IEEE 754 binary32", "why_tests_cant": "an error bound over all readings and all parameters; tests compare a few values with a tolerance", "anchors": ["mlx9064x/src/calculations.rs::delta_v", "mlx9064x/src/calculations.rs::v_dd", "mlx9064x/src/calculations.rs::v_ptat_art", "mlx9064x/src/calculations.rs::ambient_temperature", "mlx9064x/src/calculations.rs::raw_pixels_to_ir_data"]}
{"id": "C71", "title": "Raw IR signals are accurate in binary32", "statement": "For every regular EEPROM, all readings that are plausible and not absurd (non-zero gain reading, |T_a| and |V_DD| at most 1000, ambient error at most 1/4 degree) and every emissivity between 2^-20 and 2^20 in magnitude, each selected element of a raw image computed in binary32 is finite and within an explicit bound of the documented compensated signal of its pixel: twice the sum, for the pixel and (times TGC) the compensation pixel, of 8 ulp of the gained reading and the interleave compensation, 32 ulp of the compensated offset, and the propagated errors of ambient temperature and supply voltage, divided by the emissivity.", "quantifier": "all EEPROM dumps (for the MLX90641 with moderate scale exponents), pixel data, readings, emissivities, subpages, access patterns and pixels, both cameras, every arithmetic that satisfies IEEE 754 binary32", "why_tests_cant": "an error bound over all readings and parameters; tests compare a few values with a tolerance", "anchors": ["mlx9064x/src/calculations.rs::per_pixel_v_ir", "mlx9064x/src/calculations.rs::raw_pixels_to_ir_data", "mlx9064x/src/calculations.rs::CommonIrData"]}
{"id": "C72", "title": "Registers accessed directly over the bus", "statement": "Without a driver, reading the status, control or I2C configuration register with from_i2c is exactly one combined transaction that sends the register address 0x8000, 0x800D or 0x800F and receives two bytes, big-endian; writing one with to_i2c is exactly one write of address and word; bus errors are passed on and nothing panics. On a camera whose memory changes by writes only, an I2C configuration written and read back is the same configuration, the write sets exactly word 0x800F, and a failed write sets nothing. The default registers, frame rate (2 Hz) and resolution (18 bits) are the documented power-up values.", "quantifier": "all buses (any behaviour and errors), addresses, register values and bus states", "why_tests_cant": "all bus behaviours, all register values and every error position; tests use one mock that never fails", "anchors": ["mlx9064x/src/register.rs::FromI2C", "mlx9064x/src/register.rs::ToI2C", "mlx9064x/src/register.rs::I2cRegister", "mlx9064x/src/register.rs::ControlRegister::default_mlx90640", "mlx9064x/src/register.rs::ControlRegister::default_mlx90641"]}
{"id": "C73", "title": "Image size and destination length", "statement": "For every driver built by a constructor and after any history of calls, height() and width() are 24 and 32 (MLX90640) or 12 and 16 (MLX90641). Every image method accepts a destination of any length: it never changes the length; a longer destination changes neither the bus traffic, nor the driver, nor the outcome, nor the elements that a shorter one would have received; and elements after the first height()*width() are left alone.", "quantifier": "all buses, overflow modes, histories, image methods, destinations and extensions of them", "why_tests_cant": "all destination lengths, contents, bus behaviours and histories; tests use exact-size buffers", "anchors": ["mlx9064x/src/driver.rs::height", "mlx9064x/src/driver.rs::width", "mlx9064x/src/driver.rs::generate_image_to", "mlx9064x/src/calculations.rs::raw_pixels_to_temperatures", "mlx9064x/src/calculations.rs::raw_pixels_to_ir_data"]}
{"id": "C74", "title": "Object temperatures are accurate in binary32", "statement": "For every regular EEPROM, all readable frames (as in C71), every emissivity between 2^-20 and 2^20 in magnitude, ambient and reflected temperatures above 200 K, and powers and fourth roots with relative errors of at most delta, each selected element of an image computed in binary32 is finite and within an explicit bound (objectError) of the documented object temperature of its pixel, as long as the documented quantities are in a sensible range (sensitivity between 2^-30 and 2^16, object warmer than absolute zero, Ks_To correction at most one half, relative input errors below 2^-10). In a typical scene (contrast at most 1/2, surroundings below 127 degrees, |Ks_To| at most 1/1000) the temperature can be computed and the bound in degrees is at most 1610 times the relative errors of signal and radiation plus 3610 times that of the sensitivity plus 12700 times that of powers and roots (for the datasheet example less than 0.09 degrees).", "quantifier": "all EEPROM dumps (for the MLX90641 with moderate scale exponents), pixel data, readings, emissivities, reflected temperatures, subpages, access patterns and pixels, both cameras, every arithmetic that satisfies IEEE 754 binary32 and has powers and roots of the stated accuracy", "why_tests_cant": "an error bound over all readings and parameters; tests compare a few values with a tolerance", "anchors": ["mlx9064x/src/calculations.rs::per_pixel_temperature", "mlx9064x/src/calculations.rs::raw_pixels_to_temperatures", "mlx9064x/src/calculations.rs::t_ar", "mlx9064x/src/calculations.rs::sensitivity_correction_coefficient"]}
{"id": "C75", "title": "Thermal images are accurate end to end in binary32", "statement": "With a camera whose memory is only changed by writes and, between calls, by its measurements, and after any calls, every successful image call (raw subpage, subpage, next image, image if ready) leaves the elements of the buffer that are not measured alone, and every measured element whose documented inputs meet the conditions of C71 (raw images) or C74 (thermal images) is a finite number within the bound of C71 or C74 of the documented function of the camera's memory: the EEPROM, the RAM, the control word, and the user's emissivity and reflected temperature. The reported ambient temperature is within the bound of C70 of the documented one.", "quantifier": "all memories with regular EEPROM (for the MLX90641 with moderate scale exponents), all addresses, build modes and sequences of measurements and calls (none of which failed to write the control register), subpages, pixels and buffers, both cameras, every arithmetic that satisfies IEEE 754 binary32 with accurate powers", "why_tests_cant": "an error bound over all memories and call histories; tests compare a few images with a tolerance", "anchors": ["mlx9064x/src/driver.rs::generate_image_subpage_to", "mlx9064x/src/driver.rs::generate_raw_image_subpage_to", "mlx9064x/src/driver.rs::generate_image_if_ready", "mlx9064x/src/calculations.rs::raw_pixels_to_temperatures", "mlx9064x/src/mlx90640/eeprom.rs", "mlx9064x/src/mlx90641/eeprom.rs"]}
{"id": "C76", "title": "Write masks tell what the mutators change", "statement": "The write mask of the status register and of the I2C configuration register is exactly the set of bits that the register's mutators can change; that of the control register contains in addition only bits 5 and 6, which no mutator changes. After any number of mutator calls on a status or control register that was read, writing it is the masked update that write_mask is documented for: all bits outside the mask are as read. For the I2C configuration register this holds if and only if the bits outside the mask were zero. Each setter of the I2C configuration register changes exactly the documented bit of the written word.", "quantifier": "all register contents, all sequences of mutator calls", "why_tests_cant": "ranges over all register values and all sequences of edits; the tests compare the masks with one all-ones value", "anchors": ["mlx9064x/src/register.rs::Register::write_mask", "mlx9064x/src/register.rs::StatusRegister", "mlx9064x/src/register.rs::ControlRegister", "mlx9064x/src/register.rs::I2cRegister"]}
{"id": "C77", "title": "Images preserve the order of pixel values", "statement": "With positive gain and emissivity, whatever the calibration, readings and settings: if a selected pixel's raw value in one buffer is at most its value in another, everything else being equal, then its raw IR value computed in binary32 is at most the other one (if both are finite): rounding never reverses the order. In exact arithmetic, a larger raw value gives a strictly larger raw IR value, and a strictly higher temperature as long as the sensitivity is positive, |Ks_To| is at most 1/1000, the effective surroundings are below 400 K and the first estimates of the object temperature are between 220 K and 1000 K.", "quantifier": "all calibrations, readings, settings, pixel buffers, pixels and pairs of raw values; for raw images every arithmetic that satisfies IEEE 754 binary32", "why_tests_cant": "a relation between every two inputs; tests look at single conversions", "anchors": ["mlx9064x/src/calculations.rs::raw_pixels_to_ir_data", "mlx9064x/src/calculations.rs::raw_pixels_to_temperatures", "mlx9064x/src/calculations.rs::per_pixel_v_ir", "mlx9064x/src/calculations.rs::per_pixel_temperature"]}
{"id": "C78", "title": "The driver works on the mock camera", "statement": "On the mock camera of the workspace a driver can be constructed for an MLX90640 whatever the contents (with overflow checks: if the EEPROM's sums fit), and for an MLX90641 exactly when every decoded EEPROM word has at most one wrong bit (with overflow checks: and offsets fit). After that every public method returns Ok in every session of calls, between which the test may replace frames and change the status register - the mock never returns an error to it and never panics - unless the driver was built with overflow checks and the supply voltage word of a frame is too far from its reference.", "quantifier": "all contents of the mock, both cameras, both builds of driver and of mock, all sessions", "why_tests_cant": "the tests run a few histories on three fixed mocks", "anchors": ["mlx9064x-test-data/src/i2c_mock.rs::MockCameraBus", "mlx9064x/src/driver.rs::CameraDriver"]}
{"id": "C79", "title": "The mock camera is a memory with write protection", "statement": "A combined transaction with a mock succeeds exactly if it is for its I2C address, sends two address bytes and reads a positive whole number of words inside RAM or inside EEPROM, or exactly one of the three registers; then it returns the contents, and it never changes them. A write to a register succeeds exactly if it is one word that differs in unprotected bits only, and then changes this register only. No write changes RAM; one that fails changes nothing. Writes to the EEPROM succeed only at 0x240C to 0x2410 for up to eight bytes; the first configuration word is compared with its mask, but single words at 0x240D are accepted unchecked, and single words at 0x240E and 0x240F make the mock panic.", "quantifier": "all contents, I2C addresses, byte sequences sent, buffers, both builds", "why_tests_cant": "all byte sequences and contents; the mock has few tests", "anchors": ["mlx9064x-test-data/src/i2c_mock.rs::MockCameraBus::get", "mlx9064x-test-data/src/i2c_mock.rs::MockCameraBus::set", "mlx9064x-test-data/src/i2c_mock.rs::check_new_against_mask"]}
{"id": "C80", "title": "The mock notes the newest 32 transactions", "statement": "After a driver was constructed on a mock and has run any history, the mock's recent operations are the newest 32 of the driver's transactions, newest first and with their addresses and lengths, followed by what had been noted before; they never become more than 32.", "quantifier": "all contents, both cameras, both builds, all histories, successful or not", "why_tests_cant": "all histories", "anchors": ["mlx9064x-test-data/src/i2c_mock.rs::MockCameraBus::add_operation", "mlx9064x-test-data/src/i2c_mock.rs::MockCameraBus::recent_operations", "mlx9064x/src/driver.rs::CameraDriver"]}
{"id": "C81", "title": "New frames in the mock", "statement": "update_frame panics exactly if the RAM or status slice has a wrong length, otherwise it replaces RAM and status register and nothing else. set_data_available changes the status register only: true sets bit 3; false clears bit 3 and also bits 4 to 7 (so the overwrite setting is lost). A driver's data_available then returns the subpage of the status register, or None, accordingly. Both are steps of the sessions that C66, C75 and C78 quantify over.", "quantifier": "all contents and slices, both cameras and builds", "why_tests_cant": "all contents and lengths", "anchors": ["mlx9064x-test-data/src/i2c_mock.rs::MockCameraBus::update_frame", "mlx9064x-test-data/src/i2c_mock.rs::MockCameraBus::set_data_available", "mlx9064x/src/driver.rs::CameraDriver::data_available"]}
{"id": "C82", "title": "Each measurement becomes at most one image, and none is lost", "statement": "When a camera is watched with generate_image_if_ready, on a bus that may fail at any time, and other methods may be called in between: there are never more images than measurements (plus one if the new-data flag was set when the driver was made); an image is made only of a measurement that no image, successful reset_data_available or synchronize has acknowledged since; after a measurement and until one of these, generate_image_if_ready never returns Ok(false), even if it failed before, and on a bus that serves the documented accesses it returns Ok(true); until the next measurement the RAM, the EEPROM and the subpage it reads are those of the last one.", "quantifier": "all cameras' contents, both cameras and builds, all interleavings of measurements, polls, other calls and bus failures", "why_tests_cant": "all interleavings and crash points", "anchors": ["mlx9064x/src/driver.rs::CameraDriver::generate_image_if_ready", "mlx9064x/src/driver.rs::CameraDriver::reset_data_available", "mlx9064x/src/driver.rs::CameraDriver::synchronize", "mlx9064x/src/register.rs::StatusRegister"]}
{"id": "C83", "title": "The picture is assembled from the newest frames", "statement": "When the same buffer is passed to every generate_image_if_ready, then after any events each element is the documented temperature - from the camera's memory and the emissivity and reflected temperature at the time of that image - of the newest image covering its pixel, and elements no image covered are unchanged. An image that was completed but whose acknowledgement failed (a bus write error) counts; any other failing call leaves the buffer as it was. On the MLX90640, when the two newest images are of different subpages in the same access pattern, every pixel is from one of the two: those of the newest image's subpage from it and all others from the one before. On the MLX90641 every element is from the newest image. In binary32 arithmetic the same holds with the error bound of C74.", "quantifier": "all cameras' contents, both cameras and builds, all interleavings of measurements, polls (succeeding, idle or failing), setting changes and other calls; exact and binary32 arithmetic", "why_tests_cant": "all interleavings", "anchors": ["mlx9064x/src/driver.rs::CameraDriver::generate_image_if_ready", "mlx9064x/src/calculations.rs::raw_pixels_to_ir_data", "mlx9064x/src/mlx90640/mod.rs::pixels_in_subpage"]}
{"id": "C84", "title": "Several devices on one bus do not disturb each other", "statement": "If a bus, addressed at a camera's address, behaves like a bus with that camera alone, a driver for that address cannot tell the difference: construction and every method have the same outcome, leave the same driver and camera, and produce the same images and values. And calls on a driver for one address do not touch a device at another address. So two drivers for cameras at different addresses on one bus, whose calls are interleaved in any way, each produce exactly what they would have produced alone.", "quantifier": "all buses and devices, both cameras and builds, all interleavings of calls on two drivers, all bus failures", "why_tests_cant": "all interleavings, devices and failures", "anchors": ["mlx9064x/src/driver.rs::CameraDriver::new", "mlx9064x/src/driver.rs::CameraDriver", "mlx9064x/src/register.rs::I2cRegister", "mlx9064x/src/common.rs::read_ram"]}
{"id": "C85", "title": "Every call's bus traffic is bounded and known", "statement": "Constructing a driver takes one read of the EEPROM (832 words) and one register read. A getter of a camera setting takes one register read, a setter at most one read and one write; the emissivity and reflected-temperature setters none. Reading a frame takes one read of 768 pixels (MLX90640, chess), twelve of 32 (interleaved) or six of 32 (MLX90641), and five of one word; generate_image_to one register read more, generate_image_if_ready one read and one write more, or only one read if there is no new data. Synchronize takes one update and its polls. No call exceeds this even if the bus fails, and an image method that succeeds uses exactly this. A history takes at most 19 transactions and 1566 bytes per call, and 4 bytes per poll.", "quantifier": "all buses and failures, both cameras and builds, all histories and calls", "why_tests_cant": "all histories and failure points", "anchors": ["mlx9064x/src/driver.rs::CameraDriver", "mlx9064x/src/mlx90640/mod.rs::pixel_ranges", "mlx9064x/src/mlx90641/mod.rs::pixel_ranges", "mlx9064x/src/common.rs::MelexisCamera"]}
{"id": "C86", "title": "RAM address names are a faithful, ordered part of the address space", "statement": "For both cameras, converting a number or Address to a RamAddress succeeds exactly for the addresses of variants and inverts the conversion back; the order is that of the addresses, all variants lie between Base and End; adding two never overflows; subtracting is exact if not negative, otherwise it panics in a checked build and wraps in a release build. The variants' addresses are the ones the driver reads, and the pixels fill the space from Base to the first other reading.", "quantifier": "all 16-bit numbers, all pairs of variants, both cameras and builds", "why_tests_cant": "all 65536 numbers and all pairs", "anchors": ["mlx9064x/src/mlx90640/address.rs::RamAddress", "mlx9064x/src/mlx90641/address.rs::RamAddress", "mlx9064x/src/util.rs::address_enum_ops", "mlx9064x/src/common.rs::Address"]}
{"id": "C87", "title": "Error and address texts identify what happened", "statement": "A checksum error is displayed with the word read, as 0x and exactly four upper-case hexadecimal digits, and inside an Error in decimal digits. An Error's text begins with 'I2C Error: ' exactly if the bus failed and with 'Library Error: ' exactly if not, whatever texts the bus's errors have; the Debug texts of different kinds always differ; source() is always the error inside. Addresses are shown in hexadecimal without leading zeros.", "quantifier": "all errors, bus error texts, words and addresses", "why_tests_cant": "all words and all bus error types", "anchors": ["mlx9064x/src/error.rs::LibraryError", "mlx9064x/src/error.rs::Error", "mlx9064x/src/common.rs::Address"]}
{"id": "C88", "title": "The camera's settings are the last acknowledged ones", "statement": "In every session of a driver, whatever fails in it and whatever the camera measures meanwhile: each documented field of the camera's control register has the value asked for by the last call that set it and returned Ok (the value from before the driver was made if there is none), even if later calls to set it failed; bits of no field never change; and a getter that succeeds returns that value.", "quantifier": "all memories, buses that fail at any transactions, sessions of any length with any interleaving of measurements, fields and values, both cameras and builds", "why_tests_cant": "all histories and failure points", "anchors": ["mlx9064x/src/driver.rs::CameraDriver", "mlx9064x/src/register.rs::ControlRegister"]}
{"id": "C89", "title": "Starting again after a crash", "statement": "A program makes a driver and uses it in any session until it is killed after any number of bus transactions, also in the middle of a call. Then the camera is unchanged but for its RAM and status register, and for the control register, which has the settings of the calls that returned Ok. A new driver can be made unless the bus fails; it has the same calibration, caches what the control register says, and starts with the default emissivity and without reflected and ambient temperature. Unless a write of the control register failed, it has the same access pattern and resolution correction as the old driver.", "quantifier": "all memories, sessions, crash points (numbers of transactions), failures of the bus, both cameras and builds", "why_tests_cant": "all crash points and histories", "anchors": ["mlx9064x/src/driver.rs::CameraDriver::new", "mlx9064x/src/driver.rs::CameraDriver", "mlx9064x/src/register.rs::ControlRegister"]}
{"id": "C90", "title": "Emissivity divides raw images; warmer surroundings lower temperatures", "statement": "In exact arithmetic: images made of the same frame with two emissivities have raw IR values in the inverse ratio of the emissivities, pixel by pixel, and the same ambient temperature. For an emissivity between 0 and 1, a higher reflected temperature (set by the user or derived from the ambient temperature) gives a strictly lower temperature of every selected pixel with positive sensitivity, |Ks_To| at most 1/1000, effective surroundings below 400 K and a first estimate between 220 K and 1000 K.", "quantifier": "all calibrations, frames, settings, pixels, pairs of emissivities and of reflected temperatures, both builds", "why_tests_cant": "a continuum of settings and signals", "anchors": ["mlx9064x/src/calculations.rs::raw_pixels_to_ir_data", "mlx9064x/src/calculations.rs::raw_pixels_to_temperatures"]}
{"id": "C91", "title": "Lower emissivity raises temperatures", "statement": "In exact arithmetic: if a selected pixel's signal is positive and the reflected temperature is at most the ambient temperature (as it is by default), a lower emissivity gives a strictly higher temperature of the pixel, under the same conditions on sensitivity, Ks_To, surroundings and first estimate as C90, and the same ambient temperature.", "quantifier": "all calibrations, frames, pixels, reflected temperatures and pairs of positive emissivities, both builds", "why_tests_cant": "a continuum of settings and signals", "anchors": ["mlx9064x/src/calculations.rs::raw_pixels_to_temperatures", "mlx9064x/src/driver.rs::CameraDriver::override_emissivity"]}
{"id": "C92", "title": "The terminal-temperatures example prints the documented temperatures", "statement": "The example program terminal-temperatures accepts as address argument exactly the numbers 0 to 255, hexadecimal after 0x and decimal otherwise. On a bus serving the documented accesses, with a camera whose construction succeeds, it succeeds and prints one row per camera row, each value in its place: the documented temperature (default emissivity, unknown surroundings) from the picture after the half second if that is new and covers the pixel, otherwise from the picture found at the start if that was new and covers the pixel, otherwise 0. Before the second picture it has cleared the new-data flag and changed nothing else in the camera but bits 3 to 5 of the status register.", "quantifier": "all argument texts; all cameras' contents (documented sums fit), both cameras and builds, everything the camera may do during the pause, all number formats; exact arithmetic", "why_tests_cant": "Depends on all memory contents and on what the camera does during the pause; the program is not covered by any test.", "anchors": ["mlx9064x/examples/terminal-temperatures.rs: main, print_temperatures", "mlx9064x/src/driver.rs: generate_image_if_ready"]}
{"id": "C93", "title": "The true-frame-rate example measures frame changes, but its even median is wrong", "statement": "In the example true-frame-rate, find_frequency returns exactly num_frames instants, namely those of the polls whose subpage differs from that of the poll before, or the error of the first failing poll (before num_frames changes). The durations are those between successive instants. Of these the program prints the least, the greatest, the average and the most frequent one (the least of several), and a median if their number is odd. If their number is even it prints half of the upper middle duration instead of half of the sum of the two middle ones; with no durations it panics.", "quantifier": "all buses, all sequences of polled subpages and times, all lists of durations", "why_tests_cant": "Quantifies over all poll sequences and all multisets of durations; there are no tests of the examples.", "anchors": ["mlx9064x/examples/true-frame-rate.rs: main, find_frequency", "mlx9064x/src/driver.rs: last_measured_subpage"]}
{"id": "C94", "title": "Objects that follow the sensor's law are measured to 0.6 degrees, in three cases exactly", "statement": "In exact arithmetic: if the compensated signal of a selected pixel is that of an object of temperature To under the sensor's law, sensitivity*(1 + Ks_To*To)*((To+273.15)^4 - T_a-r) with the slope at the object's own temperature, the image has exactly To if Ks_To is zero, if To is 0 C or if the object radiates like its surroundings; otherwise the crate takes the slope at a first estimate of the temperature, and for objects from 0 to 100 C, effective surroundings from -10 to 60 C and |Ks_To| at most 0.00085 the element differs from To by at most 0.6 degrees. With binary32 numbers, for a driver constructed from a camera and after any session, every image method that succeeds sets such a pixel to within 0.6 degrees plus the error of the arithmetic (C74) of To.", "quantifier": "all calibrations, frames, settings and pixels meeting the conditions, all object temperatures, both builds", "why_tests_cant": "Quantifies over a continuum of temperatures, sensitivities, surroundings and slopes; the error is zero at the points tests would choose.", "anchors": ["mlx9064x/src/calculations.rs: per_pixel_temperature, raw_pixels_to_temperatures"]}
{"id": "C95", "title": "A pixel depends on nothing but what concerns it", "statement": "Whatever the arithmetic does (and therefore bit for bit), pixel i of an image and the reported ambient temperature are determined by the words of the camera's memory that concern it - the sensor-wide calibration words, the pixel's own calibration words, the pixel's own RAM word, the ambient, gain and supply words, the compensation pixel of that subpage, and the control register - together with the user's emissivity and reflected temperature. Two drivers, for different cameras on different buses and with different histories, that agree on these agree on the pixel, however different the calibration and raw values of all other pixels, the other subpage's compensation pixel and every other word are. On the MLX90641 the EEPROM words only have to hold the same value, each with at most one wrong bit.", "quantifier": "every pair of cameras (memory contents), buses, histories of calls and measurements, emissivities and reflected temperatures, subpage, pixel, arithmetic, and each of the four image methods, in both build modes", "why_tests_cant": "an index or stride mistake in the EEPROM decoding or frame access leaks one pixel's data into another only for particular pixels and contents; the claim compares every pair of memories and histories", "anchors": ["mlx9064x/src/calculations.rs: raw_pixels_to_temperatures, raw_pixels_to_ir_data", "mlx9064x/src/driver.rs: generate_image_subpage_to, generate_raw_image_subpage_to, generate_image_to, generate_image_if_ready", "mlx9064x/src/mlx90640/eeprom.rs: from_data", "mlx9064x/src/mlx90641/eeprom.rs: from_data"]}
{"id": "C96", "title": "Images do not depend on the driver's history", "statement": "An image and the ambient temperature reported with it are a function of what the camera's memory holds now and of the user's emissivity and reflected temperature: two drivers for the same camera type that have been used in entirely different ways (calls, failures other than a failed control register write, measurements in between), possibly on different buses, but whose cameras now hold the same words and that have the same two settings, make the same image, bit for bit, by each of the four image methods. No stale value of an earlier image, setting or failed call can show through.", "quantifier": "every pair of histories of calls and measurements, buses, memory contents, settings, destination buffers and arithmetic, both camera types, both build modes", "why_tests_cant": "the driver keeps cached settings, a pixel buffer and ambient temperature between calls; ruling out that any earlier call sequence influences an image needs all histories", "anchors": ["mlx9064x/src/driver.rs: CameraDriver, generate_image_subpage_to, generate_raw_image_subpage_to, generate_image_to, generate_image_if_ready, set_access_pattern, set_resolution"]}
{"id": "C97", "title": "In the usual range, images are accurate to 0.6 degrees, and to 1.2 degrees of the object", "statement": "Computing with binary32 numbers, with powers and roots of relative error at most 2^-22, on a camera whose memory is only changed by writes and measurements, and after any calls: every measured pixel of a successful image (subpage, next image, image if ready) whose documented inputs are in the usual range (ambient 0 to 50 C, surroundings -10 to 50 C, emissivity 0.8 to 1, supply within 0.5 V of 3.3 V, raw values up to 4096 counts, offsets up to 1000 counts, those of pixel and compensation pixel together drifting at most 2.2 counts per degree, sensitivity at least 1e-7, |TGC| at most 1, |Ks_To| at most 1/1000, |Ks_Ta| at most 1/256, object radiating between half and one and a half times its surroundings, ...) is a finite number within 0.6 degrees of the documented temperature; and if its signal is that of an object of temperature To under the sensor's law (C94) it is within 1.2 degrees of To.", "quantifier": "every camera memory, bus, history of calls and measurements, emissivity, reflected temperature, subpage, pixel and implementation of the powers in that range, both cameras, both build modes", "why_tests_cant": "the bound has to hold for every combination of calibration, frame and rounding errors; tests compare a few frames with one reference", "anchors": ["mlx9064x/src/calculations.rs: raw_pixels_to_temperatures, per_pixel_v_ir, per_pixel_temperature, t_ar, ambient_temperature", "mlx9064x/src/driver.rs: generate_image_subpage_to, generate_image_to, generate_image_if_ready"]}
{"id": "C98", "title": "Changes made by others to the camera's settings go unnoticed until the next control register call", "statement": "On a camera that others may change in any way between the calls of a driver (other programs on the bus, a reset, another camera in its place): every successful image (raw or thermal, of a subpage, next image, image if ready) is the documented function of the RAM and status register of the moment, of the EEPROM as it was when the driver was made, of the user's emissivity and reflected temperature, and of the access pattern and resolution that the driver's own control register calls have shown: those of the last such call (getter or setter of any field) that succeeded, or, if a setter failed to write, those it read with the value asked for replaced; before the first such call, those read at construction. The control register of the moment has no influence. In particular a driver whose camera is switched to the other pattern by somebody else goes on drawing the pixels of the old pattern without an error, until any control register call is made.", "quantifier": "every camera memory with a regular EEPROM, bus with any errors, sequence of calls with any outcomes and arbitrary changes of the bus and camera between them, subpage, destination; both cameras, both build modes", "why_tests_cant": "a test can interleave a few foreign writes with a few calls; the claim covers every change at every point between calls and the resulting pixel values", "anchors": ["mlx9064x/src/driver.rs: update_control_register, control_register, set_control_register, generate_image_subpage_to, generate_image_to, generate_image_if_ready, access_pattern, resolution_correction", "mlx9064x/src/calculations.rs: raw_pixels_to_temperatures, raw_pixels_to_ir_data"]}
{"id": "C99", "title": "On any bus, an image is made of nothing but the words last heard and the user's settings", "statement": "Whatever is connected to the bus, however it changes and whichever transactions fail: after construction and any calls with any outcomes, take a memory that holds, at each address, the last word that was received from or sent to the camera at that address. Then a successful image (raw or thermal, of a subpage, next image, image if ready) and the ambient temperature it leaves are, element for element and in any arithmetic, those that a driver freshly constructed for an undisturbed camera with that memory produces on an error free bus, given the same emissivity, reflected temperature and destination; and in exact arithmetic they are the documented functions of that memory and those settings. Nothing else (older frames, failed transactions, old contents of buffers, the order of calls) has any influence. Such a memory always exists, and on a healthy camera the memory of the camera is one.", "quantifier": "every bus, device behaviour, history of calls with any outcomes, address, subpage, destination, arithmetic, memory that agrees with what was last heard; both cameras, both build modes (documented functions: regular EEPROMs and a supply word within 16 bits of its reference)", "why_tests_cant": "tests replay a few recorded buses; this relates every run on every bus to a run on a still camera", "anchors": ["mlx9064x/src/driver.rs: new, generate_image_subpage_to, generate_raw_image_subpage_to, generate_image_to, generate_image_if_ready, update_control_register", "mlx9064x/src/util.rs, mlx9064x/src/common.rs: reads of pixel ranges and RAM values", "mlx9064x/src/calculations.rs: raw_pixels_to_temperatures, raw_pixels_to_ir_data"]}
{"id": "C100", "title": "On any bus, images in binary32 arithmetic are near the documented function of the words last heard", "statement": "In the setting of C99 with binary32 numbers and powers and roots of bounded relative error: whenever an image succeeds, the ambient temperature is within the bound of C70, every measured pixel for which the conditions of C71 (raw images) or C74 (thermal images) hold is within their bounds of the documented value computed from the words last heard and the user's settings, and the other elements are untouched. If the words last heard are a usual measurement of a pixel (C97), its temperature is within 0.6 degrees of the documented one, and within 1.2 degrees of the temperature of an object that causes those words under the sensor's law.", "quantifier": "every bus, device behaviour, history of calls with any outcomes, emissivity, reflected temperature, subpage, pixel and implementation of the powers in that range; both cameras (regular EEPROMs, for the MLX90641 moderate scales), both build modes", "why_tests_cant": "the bound has to hold for every rounding, frame and history on every bus; tests compare a few frames with one reference", "anchors": ["mlx9064x/src/driver.rs: new, generate_image_subpage_to, generate_raw_image_subpage_to, generate_image_to, generate_image_if_ready, update_control_register", "mlx9064x/src/util.rs, mlx9064x/src/common.rs: reads of pixel ranges and RAM values", "mlx9064x/src/calculations.rs: raw_pixels_to_temperatures, raw_pixels_to_ir_data"]}
{"id": "C101", "title": "Noise of a pixel changes its temperature in proportion, and only its own", "statement": "Take two thermal images of the same subpage made with the same emissivity and reflected temperature, on any buses and after any calls, whose frames were heard to differ in the words of pixels only. Where a pixel is a usual measurement (C97) in both, its two temperatures differ by at most 5e-8 times the change of its signal (the difference of its own two words, times the gain compensation, divided by the emissivity) divided by its sensitivity: about 0.5 degrees per count for the least sensitive usual pixel at unit gain. In binary32 arithmetic with powers of relative error at most 2^-22 it is at most 1.2 degrees more. So no jumps, and no influence of the other pixels' noise beyond rounding.", "quantifier": "every two memories that differ in pixel words, both drivers' buses, histories, destinations, build modes, subpage, pixel, emissivity and reflected temperature in the usual range, and implementation of the powers in that range; both cameras with regular EEPROMs", "why_tests_cant": "a continuity bound over all pairs of frames and calibrations; tests compare single frames", "anchors": ["mlx9064x/src/calculations.rs: raw_pixels_to_temperatures, per_pixel_v_ir, per_pixel_temperature, t_ar", "mlx9064x/src/driver.rs: generate_image_subpage_to, generate_image_to, generate_image_if_ready"]}
{"id": "C102", "title": "A recorded session can be played back", "statement": "Record the bus transactions of a whole session: construction of a driver of either camera and any calls, on any bus and with any outcomes. Run the same program against a strict mock that expects exactly these transactions in this order (device, bytes sent, number of bytes requested) and answers each with the recorded result. Construction fails or succeeds as it did; every call has the same outcome, returns the same value and makes the same image; the driver ends with the same settings, calibration and ambient temperature; and the mock has seen exactly the transactions that it expects, none missing, none extra.", "quantifier": "every bus, device behaviour and sequence of errors, address, build mode, history of calls with their arguments; both cameras", "why_tests_cant": "it says that nothing but the arguments and the recorded responses enters the results: no leftover of an earlier frame, no dependence on what a failed read left in a buffer, and no dependence of the requests on anything else. Tests replay single recordings.", "anchors": ["mlx9064x/src/driver.rs: CameraDriver (all methods)", "mlx9064x/src/register.rs: from_i2c, to_i2c", "mlx9064x/src/common.rs: read_ram, from_i2c", "mlx9064x/src/calculations.rs: RamData::from_i2c"]}
{"id": "C103", "title": "Drift of the amplifiers cancels", "statement": "Take two images of the same kind (raw or thermal) and subpage, made with the same settings on any buses and after any calls, whose frames were heard to differ by a drift of the camera's amplifiers only: EEPROM, control register and supply voltage reading agree; each pixel and the compensation pixel stand in the same ratio to the (non-zero) gain reading in both frames; and the two voltages of the temperature sensor (not both zero) stand in the same ratio to each other. In exact arithmetic the images (into equal buffers) and the reported ambient temperatures are equal. In binary32 arithmetic, each value of a measured pixel and the ambient temperatures differ by at most the sum of the two documented rounding bounds (C70, C71), for usual measurements of temperatures (C97) at most 1.2 degrees.", "quantifier": "every two memories so related, both drivers' buses, histories, destinations, build modes, subpage, pixel, emissivity, reflected temperature; both cameras with regular EEPROMs", "why_tests_cant": "the compensation must cancel for every calibration and every drift; tests compare single frames", "anchors": ["mlx9064x/src/calculations.rs: ambient_temperature, per_pixel_v_ir, raw_pixels_to_ir_data, raw_pixels_to_temperatures", "mlx9064x/src/driver.rs: generate_raw_image_subpage_to, generate_image_subpage_to, generate_image_to, generate_image_if_ready"]}
{"id": "C104", "title": "Differences of raw images are differences of pixel words", "statement": "Take two raw images of the same subpage made with the same emissivity (and any reflected temperatures), on any buses and after any calls, whose frames were heard to have the same EEPROM, control register, supply, gain and temperature sensor readings. In exact arithmetic the difference of the two values of a measured pixel is the difference of its two words, less the thermal gradient coefficient times the difference of the two words of the compensation pixel, times the gain compensation, divided by the emissivity; offsets, their drift with temperature and supply voltage, and the interleaving compensation cancel. In binary32 arithmetic this holds up to the sum of the two documented bounds of C71. So a background can be subtracted from raw images.", "quantifier": "every two memories so related, both drivers' buses, histories, destinations, build modes, subpage, pixel, emissivity, reflected temperatures; both cameras with regular EEPROMs", "why_tests_cant": "linearity over all pairs of frames and calibrations; tests compare single frames", "anchors": ["mlx9064x/src/calculations.rs: raw_pixels_to_ir_data, per_pixel_v_ir", "mlx9064x/src/driver.rs: generate_raw_image_subpage_to"]}
{"id": "C105", "title": "With data hold on and overwriting off, images are of whole frames", "statement": "On a camera that may finish measurements at any time, also between any two transactions of a call, on a bus with any errors: after set_data_hold(true) and set_overwrite_enabled(false) have succeeded (in any order, with any other calls around them that do not undo them) the camera holds its data; no call except set_data_hold(false), set_overwrite_enabled(true) and synchronize ends this, whatever its outcome; and as long as it lasts every image (raw or thermal, of a subpage, next image, image if ready) is exactly what the same driver would make of a quiet camera with the RAM of the moment from which on the data were held and the status register of the moment of the call: never a mixture of frames. A successful synchronize ends the holding of data, since it switches overwriting on; and with overwriting on an image can be of no frame at all although data hold is on (an example is exhibited).", "quantifier": "every schedule of measurements between transactions and calls that keeps the documented rule (RAM is not overwritten while data hold is on and overwriting is off; the overwrite bit is the user's), every bus with any errors, sequence of calls with any outcomes, subpage, destination, arithmetic; both cameras, both build modes", "why_tests_cant": "the camera's measurements interleave with the transactions of a call in unboundedly many ways; a test shows single schedules", "anchors": ["mlx9064x/src/driver.rs: set_data_hold, set_overwrite_enabled, synchronize, generate_image_subpage_to, generate_raw_image_subpage_to, generate_image_to, generate_image_if_ready", "mlx9064x/src/register.rs: ControlRegister data_hold, StatusRegister overwrite_enabled"]}
{"id": "C106", "title": "An image followed by a negative data_available is of a whole frame", "statement": "On a camera that may finish measurements at any time, also between any two transactions of a call, and sets the new-data flag when it does, on a bus with any errors: if, after an image (raw or thermal, of a subpage, or next image) and any further calls, data_available returns None, and no call in between or before the image since some earlier moment wrote the status register (set_overwrite_enabled, reset_data_available, generate_image_if_ready, synchronize), then the RAM did not change from that moment to the check, and the image is exactly what the same driver would make of a quiet camera with that RAM. A measurement that ends during the image is found by data_available (an example is exhibited). The excluded calls have to be excluded: a measurement that ends between the read and the write of set_overwrite_enabled loses its flag (an example is exhibited).", "quantifier": "every schedule of measurements between transactions and calls in which a measurement sets the flag and the camera never clears it, every bus with any errors, sequences of calls with any outcomes before and after the image, subpage, destination, arithmetic; both cameras, both build modes", "why_tests_cant": "the camera's measurements interleave with the transactions of the calls in unboundedly many ways; a test shows single schedules", "anchors": ["mlx9064x/src/driver.rs: data_available, set_overwrite_enabled, generate_image_subpage_to, generate_raw_image_subpage_to, generate_image_to", "mlx9064x/src/register.rs: StatusRegister new_data"]}
{"id": "C107", "title": "At most one image per measurement, whenever measurements finish", "statement": "On a camera that may finish measurements at any time, also during calls, and sets the new-data flag when it does: however the methods are mixed and whatever the bus errors, the number of generate_image_if_ready calls that return Ok(true) is at most the number of measurements finished since the start, plus one if the flag was set to begin with (and strictly less if the flag is still set at the end). When synchronize returns Ok, a measurement has finished since it was called. A measurement whose flag is set is not missed: after any calls that do not write the status register, the next generate_image_if_ready does not return Ok(false).", "quantifier": "all free-running cameras (any timing and contents of measurements), all bus errors, all sequences of method calls of any length, all drivers of supported cameras", "why_tests_cant": "A test runs one interleaving of measurements and transactions; a double image or a missed frame needs a measurement at one particular point of one particular sequence.", "anchors": ["mlx9064x/src/driver.rs: generate_image_if_ready, synchronize, data_available, reset_data_available", "mlx9064x/src/register.rs: StatusRegister::reset_new_data"]}
{"id": "C108", "title": "Builds with different float libraries (std, libm) give the same calibration and raw images, and nearby temperatures", "statement": "Two builds of the crate whose f32 agree on literals, conversions, + - * /, negation, reciprocal, comparison and powers of two with whole exponents, but possibly not on powi, powf and other uses of exp2 (features std and libm): they decode every EEPROM dump alike, construct the same driver from any camera, perform the same bus transactions with the same outcomes in any sequence of calls, keep the same settings and ambient temperature, and produce identical raw images. If their powers are accurate to 2^-22, the thermal images of both, in a usual measurement, differ by at most 1.2 degrees in each pixel.", "quantifier": "all pairs of float implementations that agree on the basic operations, all EEPROM dumps of any length, all buses, all sequences of calls, all drivers and destinations", "why_tests_cant": "A test suite runs on one build with one library; equality of two builds on all inputs and call histories cannot be sampled.", "anchors": ["mlx9064x/Cargo.toml: features std, libm", "mlx9064x/src/calculations.rs: raw_pixels_to_ir_data, raw_pixels_to_temperatures, per_pixel_temperature, t_ar, v_ptat_art", "mlx9064x/src/mlx90640/eeprom.rs: from_data", "mlx9064x/src/mlx90641/eeprom.rs: from_data", "mlx9064x/src/driver.rs: CameraDriver"]}
{"id": "C109", "title": "A call repeated after bus errors until it succeeds has the effect of one undisturbed call", "statement": "On a camera whose memory changes only by writes, behind a bus on which any transaction may fail and a failed write may or may not have arrived: if a call is made again and again until it returns Ok, then registers of the camera, settings, caches and ambient temperature of the driver, and the image buffer, are what a single call without errors would have made of the state before the first attempt. Likewise a constructor called until it does not fail on the bus returns what one call without errors returns (driver, error in the EEPROM data, or panic), and leaves the memory of the camera alone. The former holds for all getters, setters and image methods (not for synchronize). For generate_image_if_ready, the image is in the buffer if and only if there was a new frame at the beginning, but the last attempt may have returned Ok(false): if it failed only in resetting the new-data flag, the buffer holds the image although the call returned Err, and if that write arrived nevertheless, the next successful attempt returns Ok(false) and leaves the buffer alone.", "quantifier": "all calls and both constructors, both cameras, all buses with any pattern of errors, all memories, any number of failed attempts, all drivers and image buffers", "why_tests_cant": "The point of failure (each of the transactions of a call), whether a failed write arrived, and the number of attempts are unbounded; a test can only try a few failure patterns.", "anchors": ["mlx9064x/src/driver.rs: update_control_register, set_* methods, reset_data_available, generate_image_if_ready, generate_image_to, generate_image_subpage_to, generate_raw_image_subpage_to", "mlx9064x/src/register.rs: I2cRegister", "mlx9064x/src/common.rs: read_ram", "mlx9064x/src/driver.rs: new, new_with_calibration"]}
{"id": "C110", "title": "The extended temperature ranges never reach an image", "statement": "The crate decodes the sensitivity slopes (K_s_To) of every temperature range, the corner temperatures and the sensitivity corrections, and the calibration reports them, but images are always computed for the basic range (0 degrees to CT3, or to 80 degrees on the MLX90641): of the EEPROM words with range coefficients, a pixel and the ambient temperature depend, bit for bit, only on the slope of the basic range (K_s_To2 on the MLX90640, K_s_To3 on the MLX90641) and the common scale. Two cameras that agree on these and on the other words that concern the pixel give the same pixel, however their other ranges differ and however hot the scene is.", "quantifier": "all pairs of cameras and buses, all memories, all histories of the drivers, all pixels, both subpages, raw and thermal images, any float arithmetic", "why_tests_cant": "That a decoded coefficient has no influence is a statement about all values of the coefficient and all scenes; a test compares finitely many images.", "anchors": ["mlx9064x/src/calculations.rs: raw_pixels_to_temperatures, per_pixel_temperature", "mlx9064x/src/common.rs: CalibrationData::{k_s_to, corner_temperatures, alpha_correction}, BASIC_TEMPERATURE_RANGE", "mlx9064x/src/mlx90640/eeprom.rs: from_data", "mlx9064x/src/mlx90641/eeprom.rs: from_data"]}
{"id": "C111", "title": "Broken pixels of an MLX90640 show the surroundings", "statement": "The factory marks a broken MLX90640 pixel by the EEPROM word 0. The crate does not skip such pixels: its sensitivity is then the bulk sensitivity of its row and column as an unscaled integer, so that any signal vanishes beside it. In the usual range of measurements (as in C97: raw values up to 4096 in magnitude, ambient 0 to 50 degrees, emissivity at least 0.8, ...), computing with binary32 numbers, in each thermal image of any of the three image methods, a broken pixel whose bulk sensitivity is at least 1000 shows the temperature that the surroundings count as having (a black body of it radiates what the sensor sees reflected and emitted around the object) to 0.61 degrees, and the ambient temperature if the emissivity is 1, whatever its raw value and the scene.", "quantifier": "all MLX90640 cameras with static memory and regular EEPROM, all constructions and histories of calls, all three thermal image methods, all broken pixels of the subpage, all usual readings, emissivities, reflected temperatures and raw values, every arithmetic that satisfies IEEE 754 binary32", "why_tests_cant": "It is a statement about all raw values, readings and calibrations of broken pixels; the test data has no broken pixel in use.", "anchors": ["mlx9064x/src/mlx90640/eeprom.rs: from_data (failed pixels: alpha, k_ta, offset)", "mlx9064x/src/calculations.rs: raw_pixels_to_temperatures, per_pixel_temperature", "mlx9064x/src/driver.rs: generate_image_to, generate_image_if_ready, generate_image_subpage_to"]}
{"id": "C112", "title": "Broken pixels of an MLX90641 show no temperature", "statement": "The factory marks a broken MLX90641 pixel by EEPROM words that hold 0. The crate does not skip such pixels: their sensitivity is zero. When the EEPROM asks for no thermal gradient compensation (as all known MLX90641 do) and the frame can be evaluated, the element of a broken pixel in a thermal image is never a finite number (it is an infinity or NaN), whatever its raw value, in all three image methods. So a consumer can recognise these pixels by is_finite, and must expect such values.", "quantifier": "all MLX90641 cameras with static memory and regular EEPROM with moderate scales and without gradient compensation, with up to one wrong bit per word, all constructions and histories of calls, all three thermal image methods, all broken pixels, all readings that can be evaluated, all emissivities and reflected temperatures, every arithmetic that satisfies IEEE 754 binary32 with its infinities and NaN", "why_tests_cant": "That no combination of readings, settings and raw value yields a number is a statement about all of them.", "anchors": ["mlx9064x/src/mlx90641/eeprom.rs: from_data (failed pixels)", "mlx9064x/src/calculations.rs: raw_pixels_to_temperatures, per_pixel_temperature", "mlx9064x/src/driver.rs: generate_image_to, generate_image_if_ready, generate_image_subpage_to"]}
{"id": "C113", "title": "Signals colder than absolute zero become NaN", "statement": "The calculation of an object temperature takes two fourth roots, each of a sum of the signal's radiation and that of the surroundings. When a measured pixel's signal is so negative that this sum is negative, by more than rounding can hide, already in the first estimate or only in the second, the element of that pixel in a thermal image is NaN, in all three image methods; it is no number and no infinity. In a usual scene it is enough that the signal lacks 1.01 times what the surroundings radiate (for a typical pixel, some 1200 counts). So NaN in an image means an impossible signal, and a consumer must expect it.", "quantifier": "all cameras with static memory and regular EEPROM (of the MLX90641, with moderate scales and up to one wrong bit per word), all constructions and histories of calls, all three thermal image methods, all measured pixels with such a signal, all readings that can be evaluated, all emissivities and reflected temperatures, every arithmetic that satisfies IEEE 754 binary32 with its NaN", "why_tests_cant": "That rounding in any of the steps before the roots never turns such a sum into a positive number is a statement about all frames and EEPROM contents.", "anchors": ["mlx9064x/src/calculations.rs: raw_pixels_to_temperatures, per_pixel_temperature", "mlx9064x/src/driver.rs: generate_image_to, generate_image_if_ready, generate_image_subpage_to"]}
{"id": "C114", "title": "No temperature is below absolute zero", "statement": "However wrong the frame, the EEPROM or the settings are: an element of a thermal image is never a finite number below -273.15 (it may be NaN or an infinity). No call of any of the three thermal image methods, whether it succeeds, fails or panics, and neither of the two public conversions to temperatures puts such a number into the destination; what it did not write stays as it was. In particular every pixel that was measured is not below absolute zero. The constant as f32 is slightly less than 273.15, and rounding never carries the difference of a root and it below its negative.", "quantifier": "all drivers, buses (including failing and lying ones), EEPROM contents, frames, emissivities (including zero, negative, infinite and NaN), reflected temperatures, destinations, arithmetic modes; all histories of calls; every arithmetic that satisfies IEEE 754 binary32 and whose fourth roots are not negative", "why_tests_cant": "It is about every bit pattern of the frame and the EEPROM, and about the rounding of each result.", "anchors": ["mlx9064x/src/calculations.rs: per_pixel_temperature, raw_pixels_to_temperatures, raw_ir_to_temperatures", "mlx9064x/src/driver.rs: generate_image_to, generate_image_if_ready, generate_image_subpage_to"]}
{"id": "C115", "title": "Divisions by zero and NaN settings leave no finite pixel", "statement": "When the camera sends a gain word of zero, or the emissivity is zero or NaN, then no measured pixel of an image, raw or thermal, is a finite number. When the reflected temperature that was set is an infinity or NaN and the emissivity is not one, no measured pixel of a thermal image is. So such a fault shows in every pixel and never as a plausible temperature.", "quantifier": "all cameras and buses (the words as the driver heard them), all EEPROM contents, all other readings and settings, all histories of calls before the image, raw images and all three thermal image methods, all measured pixels; every arithmetic that satisfies IEEE 754 binary32 with its infinities and NaN", "why_tests_cant": "That no combination of the other readings, of EEPROM contents and of earlier calls brings back a number is a statement about all of them.", "anchors": ["mlx9064x/src/calculations.rs: CommonIrData::new, per_pixel_v_ir, t_ar, per_pixel_temperature", "mlx9064x/src/driver.rs: generate_raw_image_subpage_to, generate_image_to, generate_image_if_ready, generate_image_subpage_to, override_emissivity, set_reflected_temperature"]}
{"id": "C116", "title": "The quick start of the documentation", "statement": "On a bus serving the documented accesses, with a camera whose construction succeeds, the example in the crate's documentation ends without an error, and the pause is one frame at the rate in the camera's control register. The buffer then holds, for each pixel, the documented temperature (default emissivity, unknown surroundings) from the picture after the pause if that is new and covers the pixel, otherwise from the picture found at the start if that was new and covers it, otherwise 0. For the MLX90640 the two pictures cover every pixel, each once, when both were new and of different subpages; in every other case all pixels of one of the subpages are still 0.", "quantifier": "all cameras' contents (documented sums fit), both cameras and builds, everything the camera may do to its RAM and status register during the pause; exact arithmetic", "why_tests_cant": "Depends on all memory contents and on what the camera does during the pause; the example is compiled but not run (no_run).", "anchors": ["mlx9064x/src/lib.rs: crate documentation, High-Level API", "mlx9064x/src/driver.rs: frame_rate, generate_image_if_ready"]}
{"id": "C117", "title": "A brighter pixel reads higher, end to end", "statement": "Take two images of the same subpage, made with the same settings, by any drivers on any buses and after any calls, from frames that the driver heard to differ in the words of pixels only. If the word of a pixel is at most that of the other frame, its raw value is at most the other one whenever both are finite, with the rounding of binary32 and for every EEPROM, provided that emissivity and gain word are positive and, for the MLX90640, the stored gain is not negative. In exact arithmetic, for usual measurements with a positive compensated gain, a strictly larger word gives a strictly higher temperature.", "quantifier": "all buses, histories, builds, memories and pairs of frames that differ in pixels only; raw images in binary32 (rounding monotone), temperatures in exact arithmetic", "why_tests_cant": "Pairs of 16-bit words for every pixel, EEPROM and frame, on every bus and after every history; rounding could invert an order for a single pair.", "anchors": ["mlx9064x/src/driver.rs: generate_raw_image_subpage_to, generate_image_subpage_to", "mlx9064x/src/calculations.rs: raw_pixels_to_ir_data, per_pixel_temperature"]}
{"id": "C118", "title": "What the settings do to an image, end to end", "statement": "Take two images of the same subpage of one frame as the driver heard it, made with any settings, by any drivers on any buses and after any calls, in exact arithmetic. The ambient temperatures are the same. Raw values of a measured pixel are inversely proportional to the emissivities, and the reflected temperature does not matter for them. For usual measurements (C97), a lower emissivity with the same reflected temperature gives a strictly higher temperature if the signal is positive and the surroundings are not warmer than the sensor; warmer surroundings with the same emissivity below one give a strictly lower temperature.", "quantifier": "all buses, histories, builds, memories with documented sums that fit, both cameras, all subpages, pixels and pairs of settings; exact arithmetic", "why_tests_cant": "Relates two runs for all pairs of real-valued settings, memories and histories; the order of the results is a fact about the composed formulas.", "anchors": ["mlx9064x/src/driver.rs: override_emissivity, set_reflected_temperature, generate_image_subpage_to, generate_raw_image_subpage_to", "mlx9064x/src/calculations.rs: raw_pixels_to_temperatures, per_pixel_temperature"]}
