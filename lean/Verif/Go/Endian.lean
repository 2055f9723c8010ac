import Verif.Go.Basic
/-!
# `encoding/binary` big-endian integers and Go shifts on `uint32`
-/
namespace Migp

/-- The bytes written by `binary.BigEndian.PutUint16`: `byte(v>>8), byte(v)`. -/
def be16 (v : UInt16) : Bytes := [UInt8.ofNat (v.toNat / 256), UInt8.ofNat v.toNat]

/-- The bytes written by `binary.BigEndian.PutUint32`: `byte(v>>24), byte(v>>16), byte(v>>8), byte(v)`. -/
def be32 (v : UInt32) : Bytes :=
  [UInt8.ofNat (v.toNat / 16777216), UInt8.ofNat (v.toNat / 65536), UInt8.ofNat (v.toNat / 256),
   UInt8.ofNat v.toNat]

/-- `binary.BigEndian.PutUint16(buf[off:], v)` (panics when fewer than 2 bytes remain). -/
def putUint16At (buf : Bytes) (off : Nat) (v : UInt16) : Res Bytes :=
  if off + 2 ≤ buf.length then copyAt buf off (be16 v) else .panic .bounds

/-- `binary.BigEndian.PutUint32(buf[off:], v)` (panics when fewer than 4 bytes remain). -/
def putUint32At (buf : Bytes) (off : Nat) (v : UInt32) : Res Bytes :=
  if off + 4 ≤ buf.length then copyAt buf off (be32 v) else .panic .bounds

/-- `binary.BigEndian.Uint32(b)`: reads the first four bytes, panics if there are fewer. -/
def beUint32 : Bytes → Res UInt32
  | a :: b :: c :: d :: _ =>
    .ok (UInt32.ofNat (a.toNat * 16777216 + b.toNat * 65536 + c.toNat * 256 + d.toNat))
  | _ => .panic .bounds

/-- Go `x >> n` for `x uint32` and a signed count: counts of 32 or more give 0, negative counts
panic. -/
def goShr32 (x : UInt32) (n : Int) : Res UInt32 :=
  if n < 0 then .panic .negativeShift
  else if n < 32 then .ok (x >>> UInt32.ofNat n.toNat) else .ok 0

/-- Go `x << n` for `x uint32` and a signed count: counts of 32 or more give 0, negative counts
panic. -/
def goShl32 (x : UInt32) (n : Int) : Res UInt32 :=
  if n < 0 then .panic .negativeShift
  else if n < 32 then .ok (x <<< UInt32.ofNat n.toNat) else .ok 0

end Migp
