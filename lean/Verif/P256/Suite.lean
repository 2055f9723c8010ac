import Verif.P256.Hash
import Verif.Go.SuiteOfGroup
import Verif.Go.Scrypt
/-!
# The libraries themselves

`circl/oprf` with the suite `OPRFP256` in base mode (draft-irtf-cfrg-voprf-08), SHA-256 and scrypt: an `Ext` in which nothing is a
stand-in. All the laws that `Suite` and `Ext` assume are proved for it. (The suites for P-384 and P-521, which the code
never selects by default, are left out: here they are unsupported.)
-/
namespace Migp.P256
open WeierstrassCurve

/-- `contextString`: the mode is 0 (base), the suite is 3. -/
def context : Bytes := ascii "VOPRF08-" ++ [0] ++ [0, 3]

/-- A string with its length in two bytes. -/
def framed (b : Bytes) : Bytes := toBytes 2 b.length ++ b

/-- The hash of an input to the group. -/
noncomputable def hashToElement (input : Bytes) : W.Point := hashToCurve (ascii "HashToGroup-" ++ context) input

/-- The scalar of the `info` of an evaluation, as a number. -/
def scalarOf (info : Bytes) : ℕ := toField (ascii "HashToScalar-" ++ context) (ascii "Context-" ++ context ++ framed info) q 1 0

/-- `finalizeHash` -/
def finalizeHash (input info element : Bytes) : Bytes :=
  Sha256.sum256 (framed input ++ framed info ++ framed element ++ framed (ascii "Finalize-" ++ context))

/-- The operations of `circl/group` for P-256. -/
noncomputable def ops : GroupOps W.Point where
  q := q
  prime := ⟨prime_q⟩
  card := card_eq
  hashToElement := hashToElement
  hashToScalar info := (scalarOf info : ZMod q)
  ser := ser
  de := de
  finalizeHash := finalizeHash
  elemLen := 33
  de_ser := de_ser
  ser_len := ser_length

noncomputable def suite : Suite := Suite.ofGroup ops

theorem q_lt : q < 256 ^ 32 := by decide +kernel

/-- The libraries the code depends on. A private key is a scalar below the order, written in 32 bytes. -/
noncomputable def ext : Ext where
  sha256 := Sha256.sum256
  sha256_len := Sha256.sum256_length
  scryptCore := Scrypt.core
  scrypt_len := Scrypt.core_length
  suites id := if id = oprfP256 then some suite else none
  keyOK id k := decide (id = oprfP256 ∧ k.k < q)
  serKey k := toBytes 32 k.k
  deKey id b := if id = oprfP256 ∧ b.length = 32 ∧ ofBytes b < q then some ⟨ofBytes b⟩ else none
  deKey_serKey := by
    rintro id ⟨k⟩ h
    simp only [decide_eq_true_eq] at h
    have hb : ofBytes (toBytes 32 k) = k := ofBytes_toBytes _ _ (Nat.lt_trans h.2 q_lt)
    dsimp only
    rw [hb, if_pos ⟨h.1, toBytes_length _ _, h.2⟩]
  default_suite := ⟨suite, if_pos rfl, rfl⟩

theorem suites_eq : ext.suites oprfP256 = some suite := by
  show (if oprfP256 = oprfP256 then some suite else none) = _
  rw [if_pos rfl]

end Migp.P256
