import Verif.Py.Basic

/-!
# File recognition (`core/io/tio.py:95-114`, `core/io/simtel.py:105-118`) and event time (`core/io/waveform.py:35-41`)
-/

namespace Verif.Model

open Verif.Py

/-- the test `marker_bytes[0] == 0x1f and marker_bytes[1] == 0x8b` (`core/io/tio.py:101`, `core/io/simtel.py:112`);
`and` is short-circuit, so the second byte is only read if the first one matches -/
def isGzip (marker : List UInt8) : Except Err Bool :=
  match marker[0]? with
  | none => .error .indexError
  | some b0 =>
    if b0 = 0x1f then
      match marker[1]? with
      | none => .error .indexError
      | some b1 => .ok (b1 = 0x8b)
    else .ok false

/-- `struct.unpack('I', marker_bytes)` on a little-endian machine: exactly four bytes, else `struct.error`. -/
def unpackU32 : List UInt8 → Except Err Nat
  | [a, b, c, d] => .ok (a.toNat + 256 * b.toNat + 65536 * c.toNat + 16777216 * d.toNat)
  | _ => .error .structError

/-- The common first half of both `is_compatible` methods: read the first `k` bytes of the file, or of its decompressed
content if the file starts with the gzip magic.  `gunzip k file` is `gzip.open(path, 'rb').read(k)`: the first `k` bytes of
the content, or an exception if the file is corrupt up to there. -/
def readMarker (gunzip : Nat → List UInt8 → Except Err (List UInt8)) (k : Nat) (file : List UInt8) :
    Except Err (List UInt8) :=
  match isGzip (file.take k) with
  | .error e => .error e
  | .ok true => gunzip k file
  | .ok false => .ok (file.take k)

/-- `SimtelReader.is_compatible` (`core/io/simtel.py:105-118`). -/
def simtelCompatible (gunzip : Nat → List UInt8 → Except Err (List UInt8)) (file : List UInt8) : Except Err Bool := do
  let marker ← readMarker gunzip 4 file
  let v ← unpackU32 marker
  return v == 3558836791 || v == 931798996

/-- `b'FITS' in marker_bytes` -/
def containsFITS : List UInt8 → Bool
  | [] => false
  | b :: bs => ([0x46, 0x49, 0x54, 0x53].isPrefixOf (b :: bs)) || containsFITS bs

/-- `TIOReader.is_compatible` (`core/io/tio.py:95-114`).  `header` is `astropy.io.fits.getheader(path, 0)`: the list of
header keywords, `none` when it raises `IOError`. -/
def tioCompatible (gunzip : Nat → List UInt8 → Except Err (List UInt8)) (header : List UInt8 → Option (List String))
    (file : List UInt8) : Except Err Bool := do
  let marker ← readMarker gunzip 1024 file
  if containsFITS marker = false then return false
  match header file with
  | none => return false
  | some h => return decide ("EVENT_HEADER_VERSION" ∈ h)

/-! ## Event time -/

/-- exponent of the unit in the last place of the double nearest to the natural number `m` (53-bit significand) -/
def ulpExp (m : Nat) : Nat := if m < 2 ^ 53 then 0 else Nat.log2 m + 1 - 53

/-- IEEE-754 double rounding (to nearest, ties to even) of a natural number, in the normal range. -/
def roundDouble (m : Nat) : Nat :=
  let e := ulpExp m
  let q := m / 2 ^ e
  let r := m % 2 ^ e
  if 2 * r < 2 ^ e ∨ (2 * r = 2 ^ e ∧ q % 2 = 0) then q * 2 ^ e else (q + 1) * 2 ^ e

/-- two's complement wrap-around of 64-bit signed addition -/
def wrapInt64 (x : Int) : Int := (x + 2 ^ 63) % 2 ^ 64 - 2 ^ 63

/-- `Waveform.t_cpu` in nanoseconds since the epoch (`core/io/waveform.py:35-41`): `t_cpu_s * 1E9` is a double product
(the integer is first converted to a double), `np.int64` of it is exact, the sum is a 64-bit integer sum.
`pd.to_datetime(_, unit='ns')` is the identity on nanosecond counts. -/
def tCpu (t_cpu_s t_cpu_ns : Nat) : Int :=
  wrapInt64 ((roundDouble (roundDouble t_cpu_s * 1000000000) : Int) + (t_cpu_ns : Int))

end Verif.Model
