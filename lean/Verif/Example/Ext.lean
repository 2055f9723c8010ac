import Verif.Go.Ext
import Verif.Go.Sha256
import Mathlib.Tactic.NormNum.Prime
/-!
# A concrete `Ext`

The real SHA-256 with toy OPRF suites (groups of order 101 and 103), showing that the laws of
`Ext` are satisfiable and letting the examples beside the theorems run. The "scrypt" here is a
stand-in with the right output length.
-/
namespace Migp.Example

instance : Fact (Nat.Prime 101) := ⟨by norm_num⟩
instance : Fact (Nat.Prime 103) := ⟨by norm_num⟩

/-- Serialise: one zero byte for the identity, `2`, padding and the discrete logarithm otherwise. -/
def toySer {q : ℕ} (elemLen : ℕ) (g : ZMod (q + 1)) : Bytes :=
  if g = 0 then [0] else 2 :: (List.replicate (elemLen - 2) 0 ++ [UInt8.ofNat g.val])

/-- Deserialise. -/
def toyDe {q : ℕ} (elemLen : ℕ) (b : Bytes) : Option (ZMod (q + 1)) :=
  if b = [0] then some 0
  else
    let n := (b.getLastD 0).toNat
    if b = 2 :: (List.replicate (elemLen - 2) 0 ++ [UInt8.ofNat n]) ∧ n < q + 1 ∧ n ≠ 0 then
      some (n : ZMod (q + 1))
    else none

theorem toyDe_toySer {q : ℕ} (hq : q < 255) (elemLen : ℕ) (g : ZMod (q + 1)) :
    toyDe elemLen (toySer elemLen g) = some g := by
  unfold toySer
  split
  · simp [toyDe, *]
  · rename_i hg
    have hv := ZMod.val_lt g
    have hv0 : g.val ≠ 0 := by simpa using hg
    unfold toyDe
    rw [if_neg (by simp)]
    have hlast : ((2 :: (List.replicate (elemLen - 2) 0 ++ [UInt8.ofNat g.val])).getLastD (0 : UInt8)).toNat
        = g.val := by
      rw [List.getLastD_cons, List.getLastD_concat, UInt8.toNat_ofNat']
      omega
    dsimp only
    rw [hlast, if_pos ⟨rfl, hv, hv0⟩]
    simp

theorem toySer_len {q : ℕ} (elemLen : ℕ) (h : 2 ≤ elemLen) (g : ZMod (q + 1)) (hg : g ≠ 0) :
    (toySer elemLen g).length = elemLen := by
  unfold toySer
  rw [if_neg hg]
  simp
  omega

/-- A small sum of bytes, as a toy hash to the group. -/
def byteSum (b : Bytes) : ℕ := b.foldl (fun n x => (3 * n + x.toNat) % 65521) 1

/-- A suite over the group of order 101 with 33-byte elements. -/
def toySuite : Suite where
  q := 101
  hashToElement b := ((byteSum b % 100 + 1 : ℕ) : ZMod 101)
  hashToScalar b := ((byteSum b % 50 : ℕ) : ZMod 101)
  ser := toySer 33
  de := toyDe 33
  finalizeHash input info elem := Sha256.sum256 (input ++ info ++ elem)
  elemLen := 33
  de_ser := toyDe_toySer (q := 100) (by decide) 33
  ser_len := toySer_len (q := 100) 33 (by decide)

/-- A suite over the group of order 103 with 49-byte elements (as for P-384). -/
def toySuite2 : Suite where
  q := 103
  hashToElement b := ((byteSum b % 102 + 1 : ℕ) : ZMod 103)
  hashToScalar b := ((byteSum b % 50 : ℕ) : ZMod 103)
  ser := toySer 49
  de := toyDe 49
  finalizeHash input info elem := Sha256.sum256 (input ++ info ++ elem)
  elemLen := 49
  de_ser := toyDe_toySer (q := 102) (by decide) 49
  ser_len := toySer_len (q := 102) 49 (by decide)

/-- A stand-in for scrypt with the right output length. -/
def toyScrypt (pw salt : Bytes) (_N _r _p L : ℕ) : Bytes :=
  let h := Sha256.sum256 (salt ++ pw)
  (List.range L).map (fun i => (h[i % 32]?).getD 0)

/-- The concrete `Ext`. -/
def ext : Ext where
  sha256 := Sha256.sum256
  sha256_len := Sha256.sum256_length
  scryptCore := toyScrypt
  scrypt_len := by intros; simp [toyScrypt]
  suites id := if id = 3 then some toySuite else if id = 4 then some toySuite2 else none
  keyOK _ k := decide (k.k < 256)
  serKey k := [UInt8.ofNat k.k]
  deKey _ b := match b with | [x] => some ⟨x.toNat⟩ | _ => none
  deKey_serKey := by
    rintro _ ⟨k⟩ h
    simp only [decide_eq_true_eq] at h
    simp only [UInt8.toNat_ofNat', Option.some.injEq, PrivateKey.mk.injEq]
    omega
  default_suite := ⟨toySuite, by simp [oprfP256], rfl⟩

end Migp.Example
