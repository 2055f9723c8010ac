import Verif.Go.Utf8
import Verif.Go.Hex
/-!
# `encoding/json`: reading

The scanner of `encoding/json/scanner.go` as a machine that takes one byte at a time, extended to
build the value it has seen. (The package validates the whole input before it decodes anything, so decoding
the value is the same as decoding the bytes.) Strings are unquoted as in `decode.go:unquoteBytes`.
-/
namespace Migp.Json

/-- A JSON value. Numbers are kept as written; strings and keys are unquoted. -/
inductive JVal where
  | null
  | bool (b : Bool)
  | num (lit : Bytes)
  | str (s : GoString)
  | arr (elems : List JVal)
  | obj (members : List (GoString × JVal))

/-- A container that is being read: what it holds so far, last first. -/
inductive Frame where
  | arr (elems : List JVal)
  /-- `key` is the last key read -/
  | obj (key : GoString) (members : List (GoString × JVal))

/-- Where in a number: after the sign, after a leading zero, in the integer part, after the point, in
the fraction, after `e`, after the sign of the exponent, in the exponent. -/
inductive NumSt where
  | neg | zero | int | dot | frac | e | eSign | exp
deriving DecidableEq

/-- The scanner's state functions. -/
inductive Mode where
  /-- `stateBeginValue` -/
  | value
  /-- `stateBeginValueOrEmpty`: after `[` -/
  | valueOrEnd
  /-- `stateBeginStringOrEmpty`: after `{` -/
  | keyOrEnd
  /-- `stateBeginString`: after a comma in an object -/
  | key
  /-- `stateEndValue` after a key -/
  | colon
  /-- `stateEndValue` in a container -/
  | after
  /-- `stateEndTop` -/
  | done (v : JVal)
  /-- `stateInString`, `stateInStringEsc` (`esc = 1`), `stateInStringEscU…` (`esc = 2..5`); `raw` is what has
  been read, last first -/
  | str (isKey : Bool) (raw : Bytes) (esc : Nat)
  /-- `stateNeg`, `state0`, `state1`, `stateDot`, …; `raw` is what has been read, last first -/
  | num (raw : Bytes) (st : NumSt)
  /-- `stateT`, `stateTr`, …: the bytes still expected -/
  | lit (rest : Bytes) (v : JVal)
  /-- `stateError` -/
  | bad

/-- The scanner: open containers, innermost first, and the state. -/
structure Scan where
  stack : List Frame
  mode : Mode

/-- `isSpace` -/
def isSpace (c : UInt8) : Bool := c.toNat = 32 || c.toNat = 9 || c.toNat = 13 || c.toNat = 10

def isDigit (c : UInt8) : Bool := 48 ≤ c.toNat && c.toNat ≤ 57

/-- `maxNestingDepth` -/
def maxDepth : Nat := 10000

/-- `pushParseState` -/
def push (stack : List Frame) (f : Frame) (m : Mode) : Scan :=
  if stack.length + 1 ≤ maxDepth then ⟨f :: stack, m⟩ else ⟨f :: stack, .bad⟩

/-- A value is complete: it goes into the innermost open container. -/
def endValue (stack : List Frame) (v : JVal) : Scan :=
  match stack with
  | [] => ⟨[], .done v⟩
  | .arr es :: st => ⟨.arr (v :: es) :: st, .after⟩
  | .obj k ms :: st => ⟨.obj k ((k, v) :: ms) :: st, .after⟩

/-- `stateBeginValue` -/
def beginValue (stack : List Frame) (c : UInt8) : Scan :=
  if isSpace c then ⟨stack, .value⟩
  else if c.toNat = 123 then push stack (.obj [] []) .keyOrEnd
  else if c.toNat = 91 then push stack (.arr []) .valueOrEnd
  else if c.toNat = 34 then ⟨stack, .str false [] 0⟩
  else if c.toNat = 45 then ⟨stack, .num [c] .neg⟩
  else if c.toNat = 48 then ⟨stack, .num [c] .zero⟩
  else if isDigit c then ⟨stack, .num [c] .int⟩
  else if c.toNat = 116 then ⟨stack, .lit (ascii "rue") (.bool true)⟩
  else if c.toNat = 102 then ⟨stack, .lit (ascii "alse") (.bool false)⟩
  else if c.toNat = 110 then ⟨stack, .lit (ascii "ull") .null⟩
  else ⟨stack, .bad⟩

/-- `stateEndValue` in a container. -/
def afterValue (stack : List Frame) (c : UInt8) : Scan :=
  if isSpace c then ⟨stack, .after⟩
  else match stack with
    | .arr es :: st =>
      if c.toNat = 44 then ⟨stack, .value⟩
      else if c.toNat = 93 then endValue st (.arr es.reverse) else ⟨stack, .bad⟩
    | .obj _ ms :: st =>
      if c.toNat = 44 then ⟨stack, .key⟩
      else if c.toNat = 125 then endValue st (.obj ms.reverse) else ⟨stack, .bad⟩
    | [] => ⟨stack, .bad⟩

/-- `stateEndTop`, or `stateEndValue`, on the byte after a value. -/
def afterNumber (s : Scan) (c : UInt8) : Scan :=
  match s.mode with
  | .done v => if isSpace c then ⟨s.stack, .done v⟩ else ⟨s.stack, .bad⟩
  | _ => afterValue s.stack c

/-- `getu4`: four hexadecimal digits. -/
def hex4 (a b c d : UInt8) : Nat :=
  (((fromHexChar a).getD 0 * 16 + (fromHexChar b).getD 0) * 16 + (fromHexChar c).getD 0) * 16 +
    (fromHexChar d).getD 0

/-- `utf16.IsSurrogate` -/
def isSurrogate (n : Nat) : Bool := 0xD800 ≤ n && n < 0xE000

/-- The character after a backslash (`b`, `f`, `n`, `r`, `t`; others stand for themselves). -/
def escChar (e : UInt8) : UInt8 :=
  if e.toNat = 98 then 8 else if e.toNat = 102 then 12 else if e.toNat = 110 then 10
  else if e.toNat = 114 then 13 else if e.toNat = 116 then 9 else e

/-- `unquoteBytes` on the inside of a string the scanner has accepted: escapes are resolved; a lone
surrogate and bytes that are not UTF-8 become U+FFFD. -/
def unquote : Bytes → GoString
  | [] => []
  | c :: rest =>
    if c.toNat = 92 then
      match rest with
      | [] => []
      | e :: r1 =>
        if e.toNat = 117 then
          match r1 with
          | a :: b :: c' :: d :: r2 =>
            if isSurrogate (hex4 a b c' d) then
              match r2 with
              | s :: u :: a2 :: b2 :: c2 :: d2 :: r3 =>
                if s.toNat = 92 ∧ u.toNat = 117 ∧ hex4 a b c' d < 0xDC00 ∧
                    0xDC00 ≤ hex4 a2 b2 c2 d2 ∧ hex4 a2 b2 c2 d2 < 0xE000 then
                  encodeRune (0x10000 + (hex4 a b c' d - 0xD800) * 1024 + (hex4 a2 b2 c2 d2 - 0xDC00)) ++
                    unquote r3
                else replacementChar ++ unquote (s :: u :: a2 :: b2 :: c2 :: d2 :: r3)
              | r2 => replacementChar ++ unquote r2
            else encodeRune (hex4 a b c' d) ++ unquote r2
          | _ => []
        else escChar e :: unquote r1
    else if c.toNat < 0x80 then c :: unquote rest
    else
      match runeWidth (c :: rest), rest with
      | 2, c1 :: r => c :: c1 :: unquote r
      | 3, c1 :: c2 :: r => c :: c1 :: c2 :: unquote r
      | 4, c1 :: c2 :: c3 :: r => c :: c1 :: c2 :: c3 :: unquote r
      | _, r => replacementChar ++ unquote r

/-- A string is complete. -/
def endString (stack : List Frame) (isKey : Bool) (raw : Bytes) : Scan :=
  if isKey then
    match stack with
    | .obj _ ms :: st => ⟨.obj (unquote raw.reverse) ms :: st, .colon⟩
    | _ => ⟨stack, .bad⟩
  else endValue stack (.str (unquote raw.reverse))

/-- `stateInString` and the states for escapes. -/
def inString (stack : List Frame) (isKey : Bool) (raw : Bytes) (esc : Nat) (c : UInt8) : Scan :=
  if esc = 0 then
    if c.toNat = 34 then endString stack isKey raw
    else if c.toNat = 92 then ⟨stack, .str isKey (c :: raw) 1⟩
    else if c.toNat < 32 then ⟨stack, .bad⟩
    else ⟨stack, .str isKey (c :: raw) 0⟩
  else if esc = 1 then
    if c.toNat = 98 ∨ c.toNat = 102 ∨ c.toNat = 110 ∨ c.toNat = 114 ∨ c.toNat = 116 ∨ c.toNat = 92 ∨
        c.toNat = 47 ∨ c.toNat = 34 then ⟨stack, .str isKey (c :: raw) 0⟩
    else if c.toNat = 117 then ⟨stack, .str isKey (c :: raw) 2⟩
    else ⟨stack, .bad⟩
  else if (fromHexChar c).isSome then
    ⟨stack, .str isKey (c :: raw) (if esc = 5 then 0 else esc + 1)⟩
  else ⟨stack, .bad⟩

/-- The states inside a number. A byte that cannot continue the number ends it and is treated by
`stateEndValue`. -/
def inNumber (stack : List Frame) (raw : Bytes) (st : NumSt) (c : UInt8) : Scan :=
  let cont (st' : NumSt) : Scan := ⟨stack, .num (c :: raw) st'⟩
  let stop : Scan := afterNumber (endValue stack (.num raw.reverse)) c
  let isE : Bool := c.toNat = 101 || c.toNat = 69
  match st with
  | .neg => if c.toNat = 48 then cont .zero else if isDigit c then cont .int else ⟨stack, .bad⟩
  | .zero => if c.toNat = 46 then cont .dot else if isE then cont .e else stop
  | .int => if isDigit c then cont .int else if c.toNat = 46 then cont .dot else if isE then cont .e
      else stop
  | .dot => if isDigit c then cont .frac else ⟨stack, .bad⟩
  | .frac => if isDigit c then cont .frac else if isE then cont .e else stop
  | .e => if c.toNat = 43 ∨ c.toNat = 45 then cont .eSign else if isDigit c then cont .exp
      else ⟨stack, .bad⟩
  | .eSign => if isDigit c then cont .exp else ⟨stack, .bad⟩
  | .exp => if isDigit c then cont .exp else stop

/-- One byte: `scan.step(scan, c)`. -/
def step (s : Scan) (c : UInt8) : Scan :=
  match s.mode with
  | .value => beginValue s.stack c
  | .valueOrEnd =>
    if isSpace c then s
    else if c.toNat = 93 then
      match s.stack with
      | .arr es :: st => endValue st (.arr es.reverse)
      | _ => ⟨s.stack, .bad⟩
    else beginValue s.stack c
  | .keyOrEnd =>
    if isSpace c then s
    else if c.toNat = 125 then
      match s.stack with
      | .obj _ ms :: st => endValue st (.obj ms.reverse)
      | _ => ⟨s.stack, .bad⟩
    else if c.toNat = 34 then ⟨s.stack, .str true [] 0⟩
    else ⟨s.stack, .bad⟩
  | .key =>
    if isSpace c then s
    else if c.toNat = 34 then ⟨s.stack, .str true [] 0⟩
    else ⟨s.stack, .bad⟩
  | .colon =>
    if isSpace c then s else if c.toNat = 58 then ⟨s.stack, .value⟩ else ⟨s.stack, .bad⟩
  | .after => afterValue s.stack c
  | .done v => if isSpace c then ⟨s.stack, .done v⟩ else ⟨s.stack, .bad⟩
  | .str isKey raw esc => inString s.stack isKey raw esc c
  | .num raw st => inNumber s.stack raw st c
  | .lit rest v =>
    match rest with
    | [] => ⟨s.stack, .bad⟩
    | x :: xs =>
      if c.toNat = x.toNat then (if xs = [] then endValue s.stack v else ⟨s.stack, .lit xs v⟩)
      else ⟨s.stack, .bad⟩
  | .bad => s

/-- `checkValid` and the value: the whole input is one value with white space around it. At the end
the scanner is given one more space (`scanner.eof`). -/
def parse (data : Bytes) : Option JVal :=
  match ((data ++ [32]).foldl step ⟨[], .value⟩).mode with
  | .done v => some v
  | _ => none

/-- `Decoder.readValue`: the first value of the input, whatever follows it. -/
def parseFirst (s : Scan) : Bytes → Option JVal
  | [] =>
    match (step s 32).mode with
    | .done v => some v
    | _ => none
  | c :: rest =>
    match (step s c).mode with
    | .done v => some v
    | _ => parseFirst (step s c) rest

/-! ## Decoding into Go structs -/

/-- Decimal digits to a number. -/
def digitsVal (ds : Bytes) : Nat := ds.foldl (fun n d => n * 10 + (d.toNat - 48)) 0

/-- `strconv.ParseUint(s, 10, 64)` followed by the check that the field can hold the value: `none` is an
error (sign, point, exponent, out of range). -/
def parseUint (max : Nat) (lit : Bytes) : Option Nat :=
  if lit ≠ [] ∧ lit.all isDigit = true ∧ digitsVal lit ≤ max then some (digitsVal lit) else none

/-- `strconv.ParseInt(s, 10, 64)`. -/
def parseInt (lit : Bytes) : Option Int :=
  match lit with
  | [] => none
  | c :: ds =>
    if c.toNat = 45 then
      if ds ≠ [] ∧ ds.all isDigit = true ∧ digitsVal ds ≤ 9223372036854775808 then
        some (-(digitsVal ds : Int)) else none
    else if (c :: ds).all isDigit = true ∧ digitsVal (c :: ds) ≤ 9223372036854775807 then
      some (digitsVal (c :: ds) : Int) else none

/-- `literalStore` into an unsigned integer: the new value and whether an error was recorded (the old value
is then kept, and decoding goes on). `null` has no effect. -/
def setUint (max : Nat) (v : JVal) (old : Nat) : Nat × Bool :=
  match v with
  | .null => (old, false)
  | .num lit =>
    match parseUint max lit with
    | some n => (n, false)
    | none => (old, true)
  | _ => (old, true)

/-- `literalStore` into an `int`. -/
def setInt (v : JVal) (old : Int) : Int × Bool :=
  match v with
  | .null => (old, false)
  | .num lit =>
    match parseInt lit with
    | some n => (n, false)
    | none => (old, true)
  | _ => (old, true)

/-- `literalStore` into a `string`. -/
def setString (v : JVal) (old : GoString) : GoString × Bool :=
  match v with
  | .null => (old, false)
  | .str s => (s, false)
  | _ => (old, true)

end Migp.Json
