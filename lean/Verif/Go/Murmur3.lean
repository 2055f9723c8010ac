import Verif.Go.Basic
/-!
# `github.com/spaolacci/murmur3` v1.1.0, `Sum32`
-/
namespace Migp.Murmur3

/-- `c1_32` -/
def c1 : UInt32 := 0xcc9e2d51
/-- `c2_32` -/
def c2 : UInt32 := 0x1b873593

/-- `(x << r) | (x >> (32 - r))`. -/
def rotl (x : UInt32) (r : UInt32) : UInt32 := (x <<< r) ||| (x >>> (32 - r))

/-- The little-endian 32-bit block read (through an unsafe pointer, on little-endian machines). -/
def le32 (a b c d : UInt8) : UInt32 :=
  UInt32.ofNat (a.toNat + 256 * (b.toNat + 256 * (c.toNat + 256 * d.toNat)))

/-- `k1 *= c1; k1 = rotl15(k1); k1 *= c2`. -/
def mixK (k : UInt32) : UInt32 := rotl (k * c1) 15 * c2

/-- One body round: `h1 ^= k1; h1 = rotl13(h1); h1 = h1*4 + h1 + 0xe6546b64`. -/
def round (h k : UInt32) : UInt32 :=
  let h := rotl (h ^^^ mixK k) 13
  h * 4 + h + 0xe6546b64

/-- The tail switch, on the at most three bytes left after the block loop. -/
def tail (h : UInt32) : Bytes → UInt32
  | [a, b, c] => h ^^^ mixK (le32 a b c 0)
  | [a, b] => h ^^^ mixK (le32 a b 0 0)
  | [a] => h ^^^ mixK (le32 a 0 0 0)
  | _ => h

/-- A loop over 4-byte blocks with step `f`, handing the remaining bytes to `g`. -/
def blocks (f : UInt32 → UInt8 → UInt8 → UInt8 → UInt8 → UInt32) (g : UInt32 → Bytes → UInt32)
    (h : UInt32) : Bytes → UInt32
  | a :: b :: c :: d :: rest => blocks f g (f h a b c d) rest
  | t => g h t

/-- The block loop followed by the tail switch. -/
def body (h : UInt32) (s : Bytes) : UInt32 :=
  blocks (fun h a b c d => round h (le32 a b c d)) tail h s

theorem body_cons (h : UInt32) (a b c d : UInt8) (rest : Bytes) :
    body h (a :: b :: c :: d :: rest) = body (round h (le32 a b c d)) rest :=
  blocks.eq_1 _ _ h a b c d rest

theorem body_short (h : UInt32) (t : Bytes)
    (ht : ∀ a b c d rest, t = a :: b :: c :: d :: rest → False) : body h t = tail h t :=
  blocks.eq_2 _ _ h t ht

theorem body_induct {motive : UInt32 → Bytes → Prop}
    (step : ∀ h a b c d rest, motive (round h (le32 a b c d)) rest →
      motive h (a :: b :: c :: d :: rest))
    (short : ∀ h t, (∀ a b c d rest, t = a :: b :: c :: d :: rest → False) → motive h t)
    (h : UInt32) (s : Bytes) : motive h s :=
  blocks.induct (fun h a b c d => round h (le32 a b c d)) motive step short h s

/-- Finalisation mix. -/
def fmix (h : UInt32) : UInt32 :=
  let h := h ^^^ (h >>> 16)
  let h := h * 0x85ebca6b
  let h := h ^^^ (h >>> 13)
  let h := h * 0xc2b2ae35
  h ^^^ (h >>> 16)

/-- `murmur3.Sum32(data)` (seed 0). -/
def sum32 (data : Bytes) : UInt32 :=
  fmix (body 0 data ^^^ UInt32.ofNat data.length)

end Migp.Murmur3
