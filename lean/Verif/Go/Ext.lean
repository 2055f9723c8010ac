import Verif.Go.Hkdf
import Mathlib.Data.ZMod.Basic
import Mathlib.Algebra.Field.ZMod
/-!
# External libraries

What the model assumes about code outside `/repo`: an arbitrary SHA-256, an arbitrary scrypt core,
and `circl/oprf` base mode (draft-irtf-cfrg-voprf-08, as vendored at go.mod:6) over arbitrary
prime-order groups. Everything here is universally quantified: theorems hold for every `Ext`.
-/
namespace Migp

/-- An OPRF ciphersuite of `circl/oprf`: a group of prime order `q` with the operations of
`circl/group` the protocol uses. Scalars are `ZMod q`. Without loss of generality the group is
`ZMod q` too, written additively: every group of prime order is isomorphic to it, an element being
represented by its discrete logarithm (`Suite.ofGroup` in `Verif.Go.SuiteOfGroup` makes a `Suite` from any such group and proves
that it computes the same bytes).
No operation of the model inspects an element other than through the fields below. -/
structure Suite where
  /-- order of the group -/
  q : ℕ
  [prime : Fact q.Prime]
  /-- `Group.HashToElement(input, dst)` with the suite's fixed dst -/
  hashToElement : Bytes → ZMod q
  /-- `Group.HashToScalar` of the framed info string -/
  hashToScalar : Bytes → ZMod q
  /-- `Element.MarshalBinaryCompress` -/
  ser : ZMod q → Bytes
  /-- `Element.UnmarshalBinary`; `none` is an error -/
  de : Bytes → Option (ZMod q)
  /-- `finalizeHash(input, info, element)`: the OPRF output -/
  finalizeHash : Bytes → Bytes → Bytes → Bytes
  /-- compressed element size in bytes -/
  elemLen : ℕ
  /-- serialised elements deserialise to themselves -/
  de_ser : ∀ g, de (ser g) = some g
  /-- every element but the identity serialises to `elemLen` bytes -/
  ser_len : ∀ g, g ≠ 0 → (ser g).length = elemLen

attribute [instance] Suite.prime

/-- An `oprf.PrivateKey`: a scalar, given by a natural number that is reduced modulo the group
order (the Go type also records its suite; whether a key may be used with a suite is
`Ext.keyOK`). -/
structure PrivateKey where
  k : ℕ
deriving DecidableEq, Repr

/-- `oprf.OPRFP256` -/
def oprfP256 : UInt16 := 0x0003

/-- The libraries the code depends on. -/
structure Ext where
  /-- `sha256.Sum256` -/
  sha256 : Bytes → Bytes
  sha256_len : ∀ b, (sha256 b).length = 32
  /-- the computation of `scrypt.Key` once its parameters have been validated -/
  scryptCore : (password salt : Bytes) → (N r p keyLen : ℕ) → Bytes
  scrypt_len : ∀ pw salt N r p L, (scryptCore pw salt N r p L).length = L
  /-- `oprf` suites by `SuiteID`; `none` is "unsupported suite" -/
  suites : UInt16 → Option Suite
  /-- does `oprf.NewServer(id, key)` accept the key for (supported) suite `id`? -/
  keyOK : UInt16 → PrivateKey → Bool
  /-- `PrivateKey.Serialize` -/
  serKey : PrivateKey → Bytes
  /-- `PrivateKey.Deserialize(id, data)` -/
  deKey : UInt16 → Bytes → Option PrivateKey
  /-- keys usable with a suite survive serialisation -/
  deKey_serKey : ∀ id k, keyOK id k = true → deKey id (serKey k) = some k
  /-- the default suite P-256 is supported, with 33-byte compressed elements -/
  default_suite : ∃ S, suites oprfP256 = some S ∧ S.elemLen = 33

namespace Suite

variable (S : Suite)

/-- The blinded element of `oprfClient.Request([][]byte{input})` for a given random blind:
`ser(blind * HashToElement(input))`. -/
def blind (input : Bytes) (r : ZMod S.q) : Bytes := S.ser (r * S.hashToElement input)

/-- The secret scalar `1 / (key + HashToScalar(info))` of the 3HashSDHI construction; an error if
the denominator is zero. -/
def secretFromInfo (key : PrivateKey) (info : Bytes) : Res (ZMod S.q) :=
  let t : ZMod S.q := (key.k : ZMod S.q) + S.hashToScalar info
  if t = 0 then .err .oprfInverseZero else .ok t⁻¹

/-- `oprfServer.Evaluate([]oprf.Blinded{blinded}, info)` for one element. -/
def evaluate (key : PrivateKey) (blinded info : Bytes) : Res Bytes := do
  let tInv ← S.secretFromInfo key info
  match S.de blinded with
  | none => .err .oprfElement
  | some p => .ok (S.ser (tInv * p))

/-- `oprfServer.FullEvaluate(input, info)`. -/
def fullEvaluate (key : PrivateKey) (input info : Bytes) : Res Bytes := do
  let tInv ← S.secretFromInfo key info
  .ok (S.finalizeHash input info (S.ser (tInv * S.hashToElement input)))

/-- `oprfClient.Finalize(request, evaluation, info)` for one element: deserialise, multiply by the
inverse of the blind, hash. -/
def clientFinalize (input : Bytes) (r : ZMod S.q) (evaluated info : Bytes) : Res Bytes :=
  match S.de evaluated with
  | none => .err .oprfElement
  | some z => .ok (S.finalizeHash input info (S.ser (r⁻¹ * z)))

end Suite

/-- `oprf.GetSizes(DefaultOPRFSuite).SerializedElementLength`: compressed P-256 point. -/
def defaultElementLength : ℕ := 33

/-- The largest Go `int` (64-bit). -/
def maxInt : ℕ := 9223372036854775807

/-- `scrypt.Key(password, salt, N, r, p, keyLen)`: parameter validation, then the computation.
(Parameters are non-negative ints here; `N & (N-1) != 0` is "not a power of two".) -/
def scryptKey (E : Ext) (password salt : Bytes) (N r p keyLen : ℕ) : Res Bytes :=
  if N ≤ 1 ∨ (N &&& (N - 1)) ≠ 0 then .err .scryptParams
  else if r * p ≥ 1073741824 ∨ r > maxInt / 128 / p ∨ r > maxInt / 256 ∨ N > maxInt / 128 / r then
    .err .scryptParams
  else .ok (E.scryptCore password salt N r p keyLen)

end Migp
