import Verif.P256.Curve
import Verif.Go.Basic
/-!
# Points of P-256 on the wire

SEC 1, section 2.3.3. `P256.W` is the curve `y² = x³ - 3x + b` over the field of `P256.p` elements, `P256.W.Point` its
group of points (Mathlib's); `0` is the point at infinity.
-/
namespace Migp.Spec
open WeierstrassCurve P256

/-- These 32 bytes are this number, the most significant byte first. -/
def BigEndian (b : Bytes) (n : ℕ) : Prop := b.length = 32 ∧ Nat.ofDigits 256 (b.reverse.map UInt8.toNat) = n

/-- These bytes are the compressed form of this point. -/
inductive Compressed : W.Point → Bytes → Prop
  | infinity : Compressed 0 [0]
  | even {x y : F} {h : W.Nonsingular x y} {bx : Bytes} : Even y.val → BigEndian bx x.val → Compressed (.some x y h) (2 :: bx)
  | odd {x y : F} {h : W.Nonsingular x y} {bx : Bytes} : Odd y.val → BigEndian bx x.val → Compressed (.some x y h) (3 :: bx)

/-- These bytes are the compressed or the uncompressed form of this point. -/
inductive WireForm : W.Point → Bytes → Prop
  | compressed {P : W.Point} {b : Bytes} : Compressed P b → WireForm P b
  | full {x y : F} {h : W.Nonsingular x y} {bx cy : Bytes} : BigEndian bx x.val → BigEndian cy y.val →
      WireForm (.some x y h) (4 :: (bx ++ cy))

end Migp.Spec
