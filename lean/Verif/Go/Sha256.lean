import Verif.Go.Basic
/-!
# SHA-256 (FIPS 180-4)

Only used to instantiate `Ext` (`Verif.Example.Ext`), so that examples run with the real hash. The
theorems hold for any hash with 32-byte output.
-/
namespace Migp.Sha256

/-- Round constants. -/
def K : List UInt32 := [
  0x428a2f98, 0x71374491, 0xb5c0fbcf, 0xe9b5dba5, 0x3956c25b, 0x59f111f1, 0x923f82a4, 0xab1c5ed5,
  0xd807aa98, 0x12835b01, 0x243185be, 0x550c7dc3, 0x72be5d74, 0x80deb1fe, 0x9bdc06a7, 0xc19bf174,
  0xe49b69c1, 0xefbe4786, 0x0fc19dc6, 0x240ca1cc, 0x2de92c6f, 0x4a7484aa, 0x5cb0a9dc, 0x76f988da,
  0x983e5152, 0xa831c66d, 0xb00327c8, 0xbf597fc7, 0xc6e00bf3, 0xd5a79147, 0x06ca6351, 0x14292967,
  0x27b70a85, 0x2e1b2138, 0x4d2c6dfc, 0x53380d13, 0x650a7354, 0x766a0abb, 0x81c2c92e, 0x92722c85,
  0xa2bfe8a1, 0xa81a664b, 0xc24b8b70, 0xc76c51a3, 0xd192e819, 0xd6990624, 0xf40e3585, 0x106aa070,
  0x19a4c116, 0x1e376c08, 0x2748774c, 0x34b0bcb5, 0x391c0cb3, 0x4ed8aa4a, 0x5b9cca4f, 0x682e6ff3,
  0x748f82ee, 0x78a5636f, 0x84c87814, 0x8cc70208, 0x90befffa, 0xa4506ceb, 0xbef9a3f7, 0xc67178f2]

/-- Rotate right. -/
def rotr (x : UInt32) (n : UInt32) : UInt32 := (x >>> n) ||| (x <<< (32 - n))

/-- The state: eight words. -/
structure St where
  a : UInt32
  b : UInt32
  c : UInt32
  d : UInt32
  e : UInt32
  f : UInt32
  g : UInt32
  h : UInt32

def St.init : St :=
  ⟨0x6a09e667, 0xbb67ae85, 0x3c6ef372, 0xa54ff53a, 0x510e527f, 0x9b05688c, 0x1f83d9ab, 0x5be0cd19⟩

/-- One round. -/
def step (s : St) (k w : UInt32) : St :=
  let t1 := s.h + (rotr s.e 6 ^^^ rotr s.e 11 ^^^ rotr s.e 25) +
    ((s.e &&& s.f) ^^^ ((s.e ^^^ 0xffffffff) &&& s.g)) + k + w
  let t2 := (rotr s.a 2 ^^^ rotr s.a 13 ^^^ rotr s.a 22) +
    ((s.a &&& s.b) ^^^ (s.a &&& s.c) ^^^ (s.b &&& s.c))
  ⟨t1 + t2, s.a, s.b, s.c, s.d + t1, s.e, s.f, s.g⟩

/-- The 64 rounds, with the message schedule as a sliding window of 16 words. -/
def rounds : List UInt32 → List UInt32 → St → St
  | k :: ks, [w0, w1, w2, w3, w4, w5, w6, w7, w8, w9, w10, w11, w12, w13, w14, w15], s =>
    let w16 := (rotr w14 17 ^^^ rotr w14 19 ^^^ (w14 >>> 10)) + w9 +
      (rotr w1 7 ^^^ rotr w1 18 ^^^ (w1 >>> 3)) + w0
    rounds ks [w1, w2, w3, w4, w5, w6, w7, w8, w9, w10, w11, w12, w13, w14, w15, w16] (step s k w0)
  | _, _, s => s

/-- Big-endian words of a block. -/
def wordsOf : Bytes → List UInt32
  | a :: b :: c :: d :: rest =>
    UInt32.ofNat (a.toNat * 16777216 + b.toNat * 65536 + c.toNat * 256 + d.toNat) :: wordsOf rest
  | _ => []

/-- One block. -/
def block (s : St) (b : Bytes) : St :=
  let t := rounds K (wordsOf b) s
  ⟨s.a + t.a, s.b + t.b, s.c + t.c, s.d + t.d, s.e + t.e, s.f + t.f, s.g + t.g, s.h + t.h⟩

/-- The blocks of a padded message. -/
def blocks : (fuel : Nat) → St → Bytes → St
  | 0, s, _ => s
  | n + 1, s, b => blocks n (block s (b.take 64)) (b.drop 64)

def be (w : UInt32) : Bytes :=
  [UInt8.ofNat (w.toNat / 16777216), UInt8.ofNat (w.toNat / 65536), UInt8.ofNat (w.toNat / 256),
   UInt8.ofNat w.toNat]

/-- Padding: `0x80`, zeros, 64-bit big-endian bit length. -/
def pad (m : Bytes) : Bytes :=
  let z := (55 + 64 - m.length % 64) % 64
  let n := 8 * m.length
  m ++ [0x80] ++ List.replicate z 0 ++
    be (UInt32.ofNat (n / 4294967296)) ++ be (UInt32.ofNat n)

/-- `sha256.Sum256`. -/
def sum256 (m : Bytes) : Bytes :=
  let p := pad m
  let s := blocks (p.length / 64) St.init p
  be s.a ++ be s.b ++ be s.c ++ be s.d ++ be s.e ++ be s.f ++ be s.g ++ be s.h

theorem sum256_length (m : Bytes) : (sum256 m).length = 32 := rfl

/-- FIPS 180 test vector "abc", and the empty string. -/
example : sum256 (ascii "abc") =
    [0xba, 0x78, 0x16, 0xbf, 0x8f, 0x01, 0xcf, 0xea, 0x41, 0x41, 0x40, 0xde, 0x5d, 0xae, 0x22, 0x23,
     0xb0, 0x03, 0x61, 0xa3, 0x96, 0x17, 0x7a, 0x9c, 0xb4, 0x10, 0xff, 0x61, 0xf2, 0x00, 0x15, 0xad] := by
  decide +kernel
example : (sum256 []).take 4 = [0xe3, 0xb0, 0xc4, 0x42] := by decide +kernel

end Migp.Sha256
