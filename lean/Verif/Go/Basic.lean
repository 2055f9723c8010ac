/-!
# Go values, errors and panics

The fragment of Go's semantics the code of `/repo` uses: byte slices, functions returning
`(T, error)`, run-time panics, and the byte-buffer operations `make`, `copy` and re-slicing with
their bounds checks.
-/
namespace Migp

/-- A Go `[]byte` value (its contents). -/
abbrev Bytes := List UInt8

/-- A Go `string`: an immutable byte string. -/
abbrev GoString := List UInt8

/-- The bytes of an ASCII string literal of the source. -/
def ascii (s : String) : Bytes := s.toList.map (fun c => UInt8.ofNat c.toNat)

/-- The panics that can be raised by the modelled code. -/
inductive Panic where
  /-- common.go:158 `panic("Length overflow")` -/
  | lengthOverflow
  /-- common.go:172 `panic("Bucket ID bit size cannot be greater than 32")` -/
  | bucketBitSize
  /-- hasher.go:44 `panic("Invalid input")` -/
  | hasherInput
  /-- slowhasher.go:68 `panic(err)` -/
  | scryptParams
  /-- encryptor.go:118 `panic("bytes are of mismatched length")` -/
  | xorMismatch
  /-- rdasmutator.go:73 -/
  | mutatorUninitialized
  /-- rdasmutator.go:101 -/
  | mutatorRule
  /-- Go run time: slice bounds / index out of range -/
  | bounds
  /-- Go run time: negative shift amount -/
  | negativeShift
  /-- Go run time: makeslice: cap out of range -/
  | makeslice
  /-- rdasmutator.go:47 `panic("could not unmarshal Das rules")` -/
  | dasRules
deriving DecidableEq, Repr

/-- The `error` values produced by the modelled code (including the libraries it calls). -/
inductive Err where
  /-- hasher.go:62 -/
  | unsupportedBucketHasher
  /-- slowhasher.go:99 -/
  | unsupportedSlowHasher
  /-- encryptor.go:148 -/
  | unsupportedBucketEncryptor
  /-- circl/oprf: unsupported suite, or key not usable with it -/
  | oprfSuite
  /-- circl/oprf: element bytes do not deserialise -/
  | oprfElement
  /-- circl/oprf: the info scalar cancels the key -/
  | oprfInverseZero
  /-- circl/oprf: private key bytes do not deserialise -/
  | oprfKey
  /-- x/crypto/scrypt: invalid parameters -/
  | scryptParams
  /-- server.go:154 (the argument is the text after the colon) -/
  | invalidFlag (rune : Bytes)
  /-- x/crypto/hkdf: entropy limit reached -/
  | hkdfEntropy
  /-- encryptor.go:137 -/
  | hkdfShort
  /-- encryptor.go:81 -/
  | headerTooShort
  /-- client.go:111 -/
  | wrongVersionReply
  /-- client.go:139 -/
  | bucketParse
  /-- server.go:224 -/
  | versionMismatch
  /-- server.go:237 -/
  | bucketIDHex
  /-- an error returned by the caller's `Getter` -/
  | getter (code : Nat)
  /-- io.EOF -/
  | eof
  /-- io.ErrUnexpectedEOF -/
  | unexpectedEOF
  /-- server.go:202 -/
  | elementTooShort
  /-- encoding/json -/
  | json
  /-- client.go:184 -/
  | httpStatus (code : Nat)
  /-- a transport error of net/http -/
  | transport
  /-- rdasmutator.go:61 `errors.New("invalid rune")` -/
  | invalidRune
  /-- rdasmutator.go:64 `errors.New("not a letter")` -/
  | notALetter
deriving DecidableEq, Repr

/-- The result of a Go function with return type `(T, error)`: a value, an error, or a panic. -/
inductive Res (α : Type) where
  | ok (a : α)
  | err (e : Err)
  | panic (p : Panic)
deriving DecidableEq, Repr

namespace Res

/-- Sequencing: an `err` is returned to the caller (`if err != nil { return ..., err }`), a panic
unwinds. -/
protected def bind {α β : Type} : Res α → (α → Res β) → Res β
  | ok a, f => f a
  | err e, _ => err e
  | panic p, _ => panic p

instance : Monad Res where
  pure := Res.ok
  bind := Res.bind

variable {α β : Type}

@[simp] theorem pure_eq (a : α) : (pure a : Res α) = ok a := rfl
@[simp] theorem ok_bind (a : α) (f : α → Res β) : (ok a >>= f) = f a := rfl
@[simp] theorem err_bind (e : Err) (f : α → Res β) : ((err e : Res α) >>= f) = err e := rfl
@[simp] theorem panic_bind (p : Panic) (f : α → Res β) : ((panic p : Res α) >>= f) = panic p := rfl

/-- The call returned normally with a nil error. -/
def IsOk (r : Res α) : Prop := ∃ a, r = ok a
/-- The call panicked. -/
def IsPanic (r : Res α) : Prop := ∃ p, r = panic p
/-- The call returned a non-nil error. -/
def IsErr (r : Res α) : Prop := ∃ e, r = err e

@[simp] theorem isOk_ok (a : α) : (ok a).IsOk := ⟨a, rfl⟩
@[simp] theorem isOk_err (e : Err) : ¬ (err e : Res α).IsOk := by rintro ⟨a, h⟩; cases h
@[simp] theorem isOk_panic (e : Panic) : ¬ (panic e : Res α).IsOk := by rintro ⟨a, h⟩; cases h
@[simp] theorem isPanic_ok (a : α) : ¬ (ok a).IsPanic := by rintro ⟨p, h⟩; cases h
@[simp] theorem isPanic_err (e : Err) : ¬ (err e : Res α).IsPanic := by rintro ⟨p, h⟩; cases h
@[simp] theorem isPanic_panic (e : Panic) : (panic e : Res α).IsPanic := ⟨e, rfl⟩
@[simp] theorem isErr_ok (a : α) : ¬ (ok a).IsErr := by rintro ⟨p, h⟩; cases h
@[simp] theorem isErr_err (e : Err) : (err e : Res α).IsErr := ⟨e, rfl⟩
@[simp] theorem isErr_panic (e : Panic) : ¬ (panic e : Res α).IsErr := by rintro ⟨p, h⟩; cases h

theorem bind_eq_ok {r : Res α} {f : α → Res β} {b : β} :
    (r >>= f) = ok b ↔ ∃ a, r = ok a ∧ f a = ok b := by
  cases r <;> simp

theorem bind_eq_err {r : Res α} {f : α → Res β} {e : Err} :
    (r >>= f) = err e ↔ r = err e ∨ ∃ a, r = ok a ∧ f a = err e := by
  cases r <;> simp

theorem bind_eq_panic {r : Res α} {f : α → Res β} {p : Panic} :
    (r >>= f) = panic p ↔ r = panic p ∨ ∃ a, r = ok a ∧ f a = panic p := by
  cases r <;> simp

end Res

/-- `make([]byte, n)`. -/
def makeBytes (n : Nat) : Bytes := List.replicate n 0

/-- `b[off:]`, with the bounds check (the modelled slices have `cap = len`). -/
def sliceFrom (b : Bytes) (off : Nat) : Res Bytes :=
  if off ≤ b.length then .ok (b.drop off) else .panic .bounds

/-- `b[lo:hi]`, with the bounds checks. -/
def slice (b : Bytes) (lo hi : Nat) : Res Bytes :=
  if lo ≤ hi ∧ hi ≤ b.length then .ok ((b.take hi).drop lo) else .panic .bounds

/-- `b[i]`, with the bounds check. -/
def index (b : Bytes) (i : Nat) : Res UInt8 :=
  match b[i]? with
  | some x => .ok x
  | none => .panic .bounds

/-- `b[i] = v`, with the bounds check. -/
def setIndex (b : Bytes) (i : Nat) (v : UInt8) : Res Bytes :=
  if i < b.length then .ok (b.set i v) else .panic .bounds

/-- `copy(dst[off:], src)`: the new contents of `dst`. `copy` moves `min(len(dst)-off, len(src))`
bytes. -/
def copyAt (dst : Bytes) (off : Nat) (src : Bytes) : Res Bytes :=
  if off ≤ dst.length then
    .ok (dst.take off ++ src.take (dst.length - off) ++ dst.drop (off + src.length))
  else .panic .bounds

end Migp
