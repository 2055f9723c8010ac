import Verif.Go.Json
import Verif.Go.Base64
/-!
# `encoding/json`: structs and byte slices, and writing
-/
namespace Migp.Json

/-- `d.array` into a `[]byte`: element `i` is decoded over what the slice held at `i`: the old element, or
whatever is in the spare capacity there (`stale`). -/
def setByteElems (stale : Nat → UInt8) (old : Bytes) : (i : Nat) → List JVal → Bytes × Bool
  | _, [] => ([], false)
  | i, v :: vs =>
    let x := setUint 255 v ((old[i]?).getD (stale i)).toNat
    let r := setByteElems stale old (i + 1) vs
    (UInt8.ofNat x.1 :: r.1, x.2 || r.2)

/-- `literalStore` / `d.array` into a `[]byte`: `null` gives nil, a string is base64, an array gives the
bytes one by one. -/
def setBytes (stale : Nat → UInt8) (v : JVal) (old : Bytes) : Bytes × Bool :=
  match v with
  | .null => ([], false)
  | .str s =>
    match b64Decode s with
    | some b => (b, false)
    | none => (old, true)
  | .arr es => setByteElems stale old 0 es
  | _ => (old, true)

/-- A field of a struct: its name in JSON and how it is assigned. -/
structure JField (T : Type) where
  name : GoString
  set : (stale : Nat → UInt8) → JVal → T → T × Bool

/-- Case folding as in `encoding/json/fold.go`, for comparison with ASCII names: ASCII letters, and the two
runes that fold to ASCII letters, U+212A (k) and U+017F (s). -/
def fold : Bytes → Bytes
  | 0xE2 :: 0x84 :: 0xAA :: rest => 107 :: fold rest
  | 0xC5 :: 0xBF :: rest => 115 :: fold rest
  | c :: rest => (if 65 ≤ c.toNat ∧ c.toNat ≤ 90 then UInt8.ofNat (c.toNat + 32) else c) :: fold rest
  | [] => []

/-- The field for a key: the one with this name, or else the first whose name is the same up to case. -/
def lookupField {T : Type} (fields : List (JField T)) (key : GoString) : Option (JField T) :=
  match fields.find? (fun f => f.name = key) with
  | some f => some f
  | none => fields.find? (fun f => fold f.name = fold key)

/-- `d.object` into a struct: members in order, unknown keys skipped; whether any error was recorded. -/
def setMembers {T : Type} (fields : List (JField T)) (stale : Nat → Nat → UInt8) :
    List (GoString × JVal) → T → T × Bool
  | [], t => (t, false)
  | (k, v) :: ms, t =>
    match lookupField fields k with
    | none => setMembers fields stale ms t
    | some f =>
      let r := f.set (stale ms.length) v t
      let r' := setMembers fields stale ms r.1
      (r'.1, r.2 || r'.2)

/-- `d.value` into a struct. -/
def setStruct {T : Type} (fields : List (JField T)) (stale : Nat → Nat → UInt8) (v : JVal) (t : T) :
    T × Bool :=
  match v with
  | .obj ms => setMembers fields stale ms t
  | .null => (t, false)
  | _ => (t, true)

/-- `json.Unmarshal(data, &t)` for a struct: a syntax error leaves `t` unchanged; other errors are recorded
and returned at the end, after everything else has been decoded. `stale` is what spare capacity of slices
holds. -/
def unmarshalStruct {T : Type} (fields : List (JField T)) (stale : Nat → Nat → UInt8) (data : Bytes)
    (t : T) : T × Bool :=
  match parse data with
  | none => (t, true)
  | some v => setStruct fields stale v t

/-- `json.NewDecoder(r).Decode(&t)` for a struct: only the first value is read. -/
def decodeStruct {T : Type} (fields : List (JField T)) (stale : Nat → Nat → UInt8) (data : Bytes)
    (t : T) : T × Bool :=
  match parseFirst ⟨[], .value⟩ data with
  | none => (t, true)
  | some v => setStruct fields stale v t

/-! ## Writing -/

/-- One piece of a string in `encodeState.string` with `escapeHTML`. -/
def quoteRune (r : Bytes) : Bytes :=
  match r with
  | [b] =>
    let n := b.toNat
    if n < 0x80 then
      if n = 34 ∨ n = 92 then [92, b]
      else if n = 10 then [92, 110]
      else if n = 13 then [92, 114]
      else if n = 9 then [92, 116]
      else if n < 32 ∨ n = 60 ∨ n = 62 ∨ n = 38 then
        [92, 117, 48, 48, hexDigit (n / 16), hexDigit (n % 16)]
      else [b]
    else ascii "\\ufffd"
  | [0xE2, 0x80, 0xA8] => ascii "\\u2028"
  | [0xE2, 0x80, 0xA9] => ascii "\\u2029"
  | r => r

/-- `encodeState.string`. -/
def quote (s : GoString) : Bytes := [34] ++ (runes s).flatMap quoteRune ++ [34]

/-- Digits, last first. -/
def decRev : (fuel : Nat) → Nat → Bytes
  | 0, _ => []
  | fuel + 1, n =>
    if n < 10 then [UInt8.ofNat (48 + n)] else UInt8.ofNat (48 + n % 10) :: decRev fuel (n / 10)

/-- `strconv.AppendUint(b, n, 10)`. -/
def natDec (n : Nat) : Bytes := (decRev (n + 1) n).reverse

/-- `strconv.AppendInt(b, n, 10)`. -/
def intDec (n : Int) : Bytes := if n < 0 then 45 :: natDec n.natAbs else natDec n.natAbs

/-- A `[]byte` is written as a base64 string (the alphabet needs no escapes). -/
def encBytes (b : Bytes) : Bytes := [34] ++ b64Encode b ++ [34]

/-- The members of an object, with commas. The names are ASCII and need no escapes. -/
def encMembers : List (GoString × Bytes) → Bytes
  | [] => []
  | [(k, v)] => [34] ++ k ++ [34, 58] ++ v
  | (k, v) :: ms => [34] ++ k ++ [34, 58] ++ v ++ [44] ++ encMembers ms

/-- A struct: its members between braces. -/
def encObject (ms : List (GoString × Bytes)) : Bytes := [123] ++ encMembers ms ++ [125]

end Migp.Json
