#!/usr/bin/env python3
"""Differential test of the model against the crate's own test vectors (not a proof).

Runs the Lean model, with Lean's Float32 for f32, on the data of /repo/mlx9064x-test-data: decodes the EEPROM dumps and
repeats the integration tests of driver.rs and the per-field tests of eeprom.rs, with the same tolerances, against the
model of the mock camera. Writes its Lean file to /tmp; run in a built /verif/lean."""
import re, subprocess, sys
D = '/repo/mlx9064x-test-data/src/'
src = open(D + 'mlx90640_example_data.rs').read()
ee = open(D + 'eeprom_data.rs').read()

def raw(s, name):
    m = re.search(r'const %s: &\[u8\] = b"(.*?)";' % name, s, re.S)
    return [int(x, 16) for x in re.findall(r'\\x([0-9a-fA-F]{2})', m.group(1))]

def arr(s, name):
    m = re.search(r'const %s: \[\w+; [^\]]*\] = \[(.*?)\];' % name, s, re.S)
    return [x.strip().replace('_', '').replace('f32', '') for x in m.group(1).split(',') if x.strip()]

def bytes_(name, l):
    return f'def {name} : List Byte := ([{", ".join(map(str, l))}] : List Nat).map (BitVec.ofNat 8)\n'

def floats(name, l):
    return f'def {name} : List Float := [{", ".join("(" + x + ")" if x.startswith("-") else x for x in l)}]\n'

def ints(name, l):
    return f'def {name} : List Int := ("{" ".join(l)}".splitOn " ").map String.toInt!\n'

eeprom = raw(src, 'EEPROM_DATA'); f0 = raw(src, 'FRAME_0_DATA'); f1 = raw(src, 'FRAME_1_DATA')
assert (len(eeprom), len(f0), len(f1)) == (1664, 1664, 1664)
h640 = raw(ee, 'MLX90640_EEPROM_HEADER'); h641 = raw(ee, 'MLX90641_EEPROM_HEADER')
ds640 = h640 + [0x08, 0xA0] * 768
ds641 = h641 + [0xF8, 0x49] * 192 + [0xFF, 0xFF] * 192 + [0xB8, 0xC0] * 192 + [0xD8, 0x47] * 192

def ram(n, px, cells, end):
    r = [0] * (2 * (end - 0x400))
    for i in range(n): r[2 * i:2 * i + 2] = px
    for a, v in cells.items(): r[2 * (a - 0x400):2 * (a - 0x400) + 2] = v
    return r

ram640 = ram(768, [0x02, 0x61], {0x700: [0x4B, 0xF2], 0x708: [0xFF, 0xCA], 0x70A: [0x18, 0x81], 0x720: [0x06, 0xAF],
                                 0x728: [0xFF, 0xC8], 0x72A: [0xCC, 0xC5]}, 0x740)
ram641 = ram(192, [0x03, 0xCC], {0x580: [0x4C, 0x54], 0x588: [0xFF, 0x97], 0x58A: [0x26, 0x06], 0x5A0: [0x06, 0xD8],
                                 0x5A8: [0xFF, 0x97], 0x5AA: [0xCB, 0x8A]}, 0x5C0)
T = arr(src, 'TEMPERATURES'); AL = arr(src, 'ALPHA_PIXELS'); OF = arr(src, 'OFFSET_REFERENCE_PIXELS')
KTA = arr(src, 'K_TA_PIXELS'); KV = arr(src, 'K_V_PIXELS')
assert all(len(x) == 768 for x in (T, AL, OF, KTA, KV)), [len(x) for x in (T, AL, OF, KTA, KV)]

L = '''import Verif
open Mlx
set_option maxRecDepth 100000

def f32OfRat (q : Rat) : Float32 := (Float.ofInt q.num / Float.ofInt q.den).toFloat32
def powiNat (x : Float32) : Nat → Float32 | 0 => 1 | n + 1 => powiNat x n * x
instance : F32Ops Float32 where
  lit := f32OfRat
  ofInt n := (Float.ofInt n).toFloat32
  add := (· + ·)
  sub := (· - ·)
  mul := (· * ·)
  div := (· / ·)
  neg x := -x
  exp2 := Float32.exp2
  recip x := 1 / x
  powi x n := if 0 ≤ n then powiNat x n.toNat else 1 / powiNat x (-n).toNat
  powf := Float32.pow
  feq a b := a == b

def close (eps : Float) (a : Float32) (b : Float) : Bool := (a.toFloat - b).abs < eps
def closeAll (eps : Float) (as : List Float32) (bs : List Float) : Bool :=
  as.length == bs.length && (as.zip bs).all fun p => close eps p.1 p.2
def worst (as : List Float32) (bs : List Float) : Float :=
  (as.zip bs).foldl (fun m p => max m (p.1.toFloat - p.2).abs) 0
def say (name : String) (ok : Bool) : IO Unit := IO.println s!"{if ok then "ok  " else "FAIL"} {name}"

def bytesN (n : Nat) (l : List Byte) : Bytes n :=
  if h : l.length = n then ⟨l, h⟩ else ⟨List.replicate n 0, List.length_replicate⟩

def mk (c : MockConfig) (e r s k : List Byte) : Mock c :=
  ⟨bytesN _ e, bytesN _ r, bytesN _ s, bytesN _ k, bytesN _ [0, 0], []⟩

''' 
L += bytes_('eeprom', eeprom) + bytes_('frame0', f0) + bytes_('frame1', f1) + bytes_('ds640', ds640) + bytes_('ds641', ds641)
L += bytes_('ram640', ram640) + bytes_('ram641', ram641)
L += floats('temps', T) + floats('alphas', AL) + ints('offsets', OF) + floats('kTas', KTA) + floats('kVs', KV)
L += '''
def main : IO Unit := do
  match Mlx90640.fromData (F := Float32) .checked eeprom with
  | .ok c0 =>
    let c := c0.toCalib
    say "example: resolution" (c.resolution == .eighteen)
    say "example: k_v_dd, v_dd_25" (c.kVdd == -3200 && c.vdd25 == -12544)
    say "example: k_v_ptat" (close 0.00001 c.kVptat 0.002197)
    say "example: k_t_ptat, v_ptat_25, alpha_ptat, gain" (c.kTptat == 42.625 && c.vptat25 == 12196 && c.alphaPtat == 9 && c.gain == 5580)
    say "example: offsets" (c.offsetRef .zero == offsets && c.offsetRef .one == offsets)
    say "example: k_ta" (closeAll 1e-7 (c.kTa .zero) kTas && closeAll 1e-7 (c.kTa .one) kTas)
    say "example: k_v" (closeAll 1e-7 (c.kV .zero) kVs && closeAll 1e-7 (c.kV .one) kVs)
    say "example: alpha" (closeAll 1e-12 (c.alpha .zero) alphas && closeAll 1e-12 (c.alpha .one) alphas)
    say "example: offset_cp" (c.offsetRefCp .zero == -69 && c.offsetRefCp .one == -65)
    say "example: k_v_cp, k_ta_cp" (c.kVCp .zero == 0.375 && close 1e-6 (c.kTaCp .zero) 0.004272)
    say "example: alpha_cp" (close 1e-15 (c.alphaCp .zero) 0.0000000028812792152 && close 1e-15 (c.alphaCp .one) 0.0000000029037892091)
    say "example: k_s_ta" (close 1e-6 c.kSTa (-0.002441))
    say "example: k_s_to" (c.kSTo.length == 4 && c.kSTo.all fun x => close 1e-6 x (-0.0002))
    say "example: corner temperatures" (c.cornerTemps.take 4 == [-40, 0, 300, 500])
    say "example: emissivity None, no failed pixels or outliers" (c.emissivity.isNone && !c.failed.any id && !c.outlier.any id)
  | _ => say "example eeprom" false
  match Mlx90640.fromData (F := Float32) .checked ds640 with
  | .ok c0 =>
    let c := c0.toCalib
    let px := 11 * 32 + 15
    say "datasheet 640: integers" (c.kVdd == -3168 && c.vdd25 == -13056 && (c.offsetRef .zero)[px]! == -75)
    say "datasheet 640: k_t_ptat .." (c.kTptat == 42.25 && c.vptat25 == 12273 && c.alphaPtat == 9 && c.gain == 6383)
    say "datasheet 640: pixel" (close 1e-7 ((c.kTa .zero)[px]!) 0.005126953125 && (c.kV .one)[px]! == 0.5)
    say "datasheet 640: offset_cp" (c.offsetRefCp .zero == -75 && c.offsetRefCp .one == -77)
    say "datasheet 640: corner temperatures" (c.cornerTemps.take 4 == [-40, 0, 160, 320])
  | _ => say "datasheet eeprom" false
  -- mlx90640_datasheet_integration
  let cfg := MockConfig.mlx90640 0x30#8
  let b := mockBus .checked cfg
  match Driver.new640 (F := Float32) .checked b (mk cfg ds640 ram640 [0, 9] [0x19, 1]) 0x30#8 with
  | (_, .ok d) =>
    match Driver.generateImageSubpageTo ⟨.checked, 24, b⟩ .zero (List.replicate 768 0) d with
    | (_, ts, .ok ()) =>
      say "mlx90640_datasheet_integration" (close 0.5 ts[11 * 32 + 15]! 80.36331)
      IO.println s!"     {ts[11 * 32 + 15]!}"
    | _ => say "mlx90640_datasheet_integration" false
  | _ => say "new640" false
  -- mlx90641_datasheet_integration
  let cfg := MockConfig.mlx90641 0x28#8
  let b := mockBus .checked cfg
  match Driver.new641 (F := Float32) .checked b (mk cfg ds641 ram641 [0, 8] [9, 1]) 0x28#8 with
  | (_, .ok d) =>
    match Driver.generateImageIfReady ⟨.checked, 12, b⟩ (List.replicate 192 0) d with
    | (_, ts, .ok true) =>
      say "mlx90641_datasheet_integration" (close 0.5 ts[5 * 16 + 8]! 80.129812)
      IO.println s!"     {ts[5 * 16 + 8]!}"
    | _ => say "mlx90641_datasheet_integration" false
  | _ => say "new641" false
  -- mlx90640_example_integration
  let cfg := MockConfig.mlx90640 0x43#8
  let b := mockBus .checked cfg
  let env : Env (Mock cfg) MockFailure MockFailure := ⟨.checked, 24, b⟩
  let nan : Float32 := 0 / 0
  match Driver.new640 (F := Float32) .checked b ((mk cfg eeprom frame0 [0, 0] [0x19, 1]).setDataAvailable false) 0x43#8 with
  | (_, .ok d) =>
    match Driver.generateImageIfReady env (List.replicate 768 nan) d with
    | (d, t0, .ok false) =>
      say "mlx90640_example_integration: not ready" (t0.all (·.isNaN))
      match Driver.generateImageIfReady env t0 { d with bus := d.bus.setDataAvailable true } with
      | (d, t1, .ok true) =>
        say "mlx90640_example_integration: half" ((t1.filter (·.isNaN)).length == 384)
        match d.bus.updateFrame frame1 [0, 1] with
        | .ok bus =>
          match Driver.generateImageIfReady env t1 { d with bus := bus.setDataAvailable true } with
          | (_, t2, .ok true) =>
            say "mlx90640_example_integration: temperatures of 768 pixels" (closeAll 0.001 t2 temps)
            IO.println s!"     largest difference {worst t2 temps}"
          | _ => say "second frame" false
        | _ => say "update_frame" false
      | _ => say "first frame" false
    | _ => say "not ready" false
  | _ => say "new640" false
'''
open('/tmp/Conformance.lean', 'w').write(L)
r = subprocess.run(['lake', 'env', 'lean', '--run', '/tmp/Conformance.lean'], cwd='/verif/lean')
sys.exit(r.returncode)
