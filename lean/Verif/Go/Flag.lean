import Verif.Go.Basic
/-!
# `strconv` and `flag`

What the programs use of the standard library to read their command lines (written from knowledge of Go 1.16 to 1.22,
with `int` of 64 bits).
-/
namespace Migp

/-- `lower` of strconv: `c | ('x' - 'X')`. -/
def lowerByte (c : UInt8) : UInt8 := c ||| 32

/-- `strconv.ParseBool` (`none` is an error). -/
def parseBool (s : GoString) : Option Bool :=
  if s = ascii "1" ∨ s = ascii "t" ∨ s = ascii "T" ∨ s = ascii "true" ∨ s = ascii "TRUE" ∨ s = ascii "True" then some true
  else if s = ascii "0" ∨ s = ascii "f" ∨ s = ascii "F" ∨ s = ascii "false" ∨ s = ascii "FALSE" ∨ s = ascii "False" then
    some false
  else none

/-- The class of the character that `underscoreOK` has seen last: `'^'`, `'0'`, `'_'`, `'!'`. -/
inductive Saw where
  | beginning
  | digit
  | underscore
  | other
deriving DecidableEq

/-- The loop of `strconv.underscoreOK`. -/
def underscoreLoop (hex : Bool) : (saw : Saw) → GoString → Bool
  | saw, [] => decide (saw ≠ .underscore)
  | saw, c :: s =>
    if (48 ≤ c ∧ c ≤ 57) ∨ (hex ∧ 97 ≤ lowerByte c ∧ lowerByte c ≤ 102) then underscoreLoop hex .digit s
    else if c = 95 then
      if saw ≠ .digit then false else underscoreLoop hex .underscore s
    else if saw = .underscore then false
    else underscoreLoop hex .other s

/-- `strconv.underscoreOK` -/
def underscoreOK (s : GoString) : Bool :=
  let s := match s with
    | c :: s' => if c = 45 ∨ c = 43 then s' else s
    | [] => s
  match s with
  | 48 :: x :: s' =>
    if lowerByte x = 98 ∨ lowerByte x = 111 ∨ lowerByte x = 120 then underscoreLoop (lowerByte x = 120) .digit s'
    else underscoreLoop false .beginning s
  | _ => underscoreLoop false .beginning s

/-- The value of a digit in `strconv.ParseUint`. -/
def digitValue (c : UInt8) : Option UInt8 :=
  if 48 ≤ c ∧ c ≤ 57 then some (c - 48)
  else if 97 ≤ lowerByte c ∧ lowerByte c ≤ 122 then some (lowerByte c - 97 + 10)
  else none

/-- The loop over the digits in `strconv.ParseUint` for base 0 and 64 bits: the number and whether there were underscores
(`none` is an error: syntax or range). -/
def parseDigits (base : UInt64) : (n : UInt64) → (underscores : Bool) → GoString → Option (UInt64 × Bool)
  | n, underscores, [] => some (n, underscores)
  | n, underscores, c :: s =>
    if c = 95 then parseDigits base n true s
    else
      match digitValue c with
      | none => none
      | some d =>
        if d.toUInt64 ≥ base then none
        else if n ≥ 18446744073709551615 / base + 1 then none
        else if n * base + d.toUInt64 < n * base then none
        else parseDigits base (n * base + d.toUInt64) underscores s

/-- `strconv.ParseUint(s, 0, 64)`: the base and what follows the prefix. -/
def splitBase (s : GoString) : UInt64 × GoString :=
  match s with
  | 48 :: x :: y :: s' =>
    if lowerByte x = 98 then (2, y :: s')
    else if lowerByte x = 111 then (8, y :: s')
    else if lowerByte x = 120 then (16, y :: s')
    else (8, x :: y :: s')
  | 48 :: s' => (8, s')
  | _ => (10, s)

/-- `strconv.ParseUint(s, 0, 64)` (`none` is an error). -/
def parseUint (s : GoString) : Option UInt64 :=
  if s = [] then none
  else
    match parseDigits (splitBase s).1 0 false (splitBase s).2 with
    | none => none
    | some (n, underscores) => if underscores ∧ ¬ underscoreOK s then none else some n

/-- `strconv.ParseInt(s, 0, 64)` (`none` is an error). -/
def parseInt (s : GoString) : Option Int :=
  match s with
  | [] => none
  | c :: s' =>
    let neg := decide (c = 45)
    let digits := if c = 43 ∨ c = 45 then s' else s
    match parseUint digits with
    | none => none
    | some un =>
      if ¬ neg ∧ un ≥ 9223372036854775808 then none
      else if neg ∧ un > 9223372036854775808 then none
      else some (if neg then -(un.toNat : Int) else un.toNat)

/-- A variable that a flag sets: `flag.BoolVar`, `flag.StringVar`, `flag.IntVar`; `F` holds all variables. -/
inductive FlagVar (F : Type) where
  | bool (set : Bool → F → F)
  | string (set : GoString → F → F)
  | int (set : Int → F → F)

/-- `IsBoolFlag` -/
def FlagVar.isBool {F : Type} : FlagVar F → Bool
  | .bool _ => true
  | _ => false

/-- The `Set` methods of the three types of flags (`none` is an error). -/
def FlagVar.put {F : Type} (v : FlagVar F) (value : GoString) (vars : F) : Option F :=
  match v with
  | .bool set => (parseBool value).map (set · vars)
  | .string set => some (set value vars)
  | .int set => (parseInt value).map (set · vars)

/-- What `flag.Parse` does with a command line. -/
inductive FlagResult (F : Type) where
  /-- it returns, having set the variables; the words that are left are `flag.Args()` -/
  | parsed (vars : F) (args : List GoString)
  /-- it prints the usage and exits with status 0 -/
  | help
  /-- it prints a message and the usage and exits with status 2 -/
  | bad
deriving DecidableEq

/-- The search for `=` in `parseOne`, from index 1 on: the name, and the value if there is one. -/
def splitName : (name : GoString) → GoString × Option GoString
  | [] => ([], none)
  | c :: name =>
    match (name.takeWhile (· ≠ 61), name.dropWhile (· ≠ 61)) with
    | (before, []) => (c :: before, none)
    | (before, _ :: value) => (c :: before, some value)

/-- `flag.FlagSet.parseOne` on one word: it is not a flag, it ends the flags, its syntax is wrong, or it has this name and this
value. -/
inductive FlagWord where
  | none
  | terminator
  | bad
  | flag (name : GoString) (value : Option GoString)

/-- `flag.FlagSet.parseOne`: what follows the dashes. -/
def flagName : (name : GoString) → FlagWord
  | [] => .bad
  | n :: name => if n = 45 ∨ n = 61 then .bad else .flag (splitName (n :: name)).1 (splitName (n :: name)).2

/-- `flag.FlagSet.parseOne`, the first half. -/
def flagWord (s : GoString) : FlagWord :=
  match s with
  | 45 :: c :: s' =>
    if c = 45 ∧ s' = [] then .terminator
    else flagName (if c = 45 then s' else c :: s')
  | _ => .none

/-- `flag.FlagSet.Parse` with `flag.ExitOnError`: `parseOne` again and again. `formal` are the flags that have been
defined. -/
def flagParse {F : Type} (formal : GoString → Option (FlagVar F)) : (vars : F) → List GoString → FlagResult F
  | vars, [] => .parsed vars []
  | vars, s :: args =>
    match flagWord s with
    | .none => .parsed vars (s :: args)
    | .terminator => .parsed vars args
    | .bad => .bad
    | .flag name value =>
      match formal name with
      | none => if name = ascii "help" ∨ name = ascii "h" then .help else .bad
      | some v =>
        if v.isBool then
          match v.put (value.getD (ascii "true")) vars with
          | none => .bad
          | some vars => flagParse formal vars args
        else
          match value, args with
          | some value, args =>
            match v.put value vars with
            | none => .bad
            | some vars => flagParse formal vars args
          | none, value :: args =>
            match v.put value vars with
            | none => .bad
            | some vars => flagParse formal vars args
          | none, [] => .bad

end Migp
