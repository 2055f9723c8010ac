import Verif.Model.CommandLine
import Verif.Spec.Json
/-!
# Command lines

How flags are written on a command line, and which values they give, without reference to the parser.
-/
namespace Migp.Spec

/-! ## Numbers and truth values -/

/-- A digit: `0` to `9`, or a letter of either case for 10 to 35. -/
def DigitIs (c : UInt8) (d : Nat) : Prop :=
  (∃ i < 10, c = UInt8.ofNat (48 + i) ∧ d = i) ∨
  ∃ i < 26, (c = UInt8.ofNat (97 + i) ∨ c = UInt8.ofNat (65 + i)) ∧ d = 10 + i

/-- Digits of base `base`, and the number they denote. -/
inductive DigitsAre (base : Nat) : Bytes → Nat → Prop
  | nil : DigitsAre base [] 0
  | snoc {ds : Bytes} {n : Nat} {c : UInt8} {d : Nat} : DigitsAre base ds n → DigitIs c d → d < base →
      DigitsAre base (ds ++ [c]) (base * n + d)

/-- There are no two underscores in a row and none at the end. -/
def Grouped (s : Bytes) : Prop := (¬ ∃ a b, s = a ++ ascii "__" ++ b) ∧ ¬ ∃ a, s = a ++ ascii "_"

/-- A number as in Go's source: decimal, or with a prefix `0b`, `0o` or `0x` of either case, or octal after a `0`;
underscores may separate digits, or the prefix from digits. -/
inductive IsUnsigned : Bytes → Nat → Prop
  | decimal {s : Bytes} {n : Nat} : s ≠ [] → s.head? ≠ some 48 → s.head? ≠ some 95 → Grouped s →
      DigitsAre 10 (s.filter (· ≠ 95)) n → IsUnsigned s n
  | octal {s : Bytes} {n : Nat} : Grouped s → DigitsAre 8 (s.filter (· ≠ 95)) n → IsUnsigned (ascii "0" ++ s) n
  | prefixed {p s : Bytes} {base n : Nat} :
      (base = 2 ∧ (p = ascii "0b" ∨ p = ascii "0B")) ∨ (base = 8 ∧ (p = ascii "0o" ∨ p = ascii "0O")) ∨
        (base = 16 ∧ (p = ascii "0x" ∨ p = ascii "0X")) →
      s ≠ [] → Grouped s → DigitsAre base (s.filter (· ≠ 95)) n → IsUnsigned (p ++ s) n

/-- A number with or without a sign that fits into 64 bits. -/
def IsIntText (s : Bytes) (n : Int) : Prop :=
  (∃ m : Nat, ((IsUnsigned s m ∨ ∃ s', s = ascii "+" ++ s' ∧ IsUnsigned s' m) ∧ n = m) ∨
    ∃ s', s = ascii "-" ++ s' ∧ IsUnsigned s' m ∧ n = -(m : Int)) ∧
  -(2 ^ 63 : Int) ≤ n ∧ n < 2 ^ 63

/-- The six ways to write each truth value. -/
def IsBoolText (s : Bytes) (b : Bool) : Prop :=
  s ∈ (if b then ["1", "t", "T", "true", "TRUE", "True"] else ["0", "f", "F", "false", "FALSE", "False"]).map ascii

/-! ## Command lines -/

/-- Types of flags. -/
inductive FlagKind where
  | bool
  | string
  | int
deriving DecidableEq

/-- The flags of the server. -/
def serverFlags : List (GoString × FlagKind) :=
  [(ascii "config", .string), (ascii "listen", .string), (ascii "dump-config", .bool), (ascii "infile", .string),
   (ascii "metadata", .string), (ascii "num-variants", .int), (ascii "username-variant", .bool)]

/-- The flags of the client. -/
def clientFlags : List (GoString × FlagKind) :=
  [(ascii "config", .string), (ascii "dump-config", .bool), (ascii "show-password", .bool), (ascii "infile", .string),
   (ascii "target", .string)]

/-- One or two dashes. -/
def IsDash (d : GoString) : Prop := d = ascii "-" ∨ d = ascii "--"

/-- The words by which a flag is given a value. Only a flag that is not a truth value may have it in a word of its own; only a
truth value may be left out, and is then `true`. -/
inductive Spells (flags : List (GoString × FlagKind)) (name value : GoString) : List GoString → Prop
  | joined {d : GoString} {kind : FlagKind} : (name, kind) ∈ flags → IsDash d →
      Spells flags name value [d ++ name ++ ascii "=" ++ value]
  | bare {d : GoString} : (name, FlagKind.bool) ∈ flags → IsDash d → value = ascii "true" →
      Spells flags name value [d ++ name]
  | apart {d : GoString} {kind : FlagKind} : (name, kind) ∈ flags → kind ≠ .bool → IsDash d →
      Spells flags name value [d ++ name, value]

/-- The value is one of the flag's type. -/
def Valid (flags : List (GoString × FlagKind)) (name value : GoString) : Prop :=
  ((name, FlagKind.bool) ∈ flags → ∃ b, IsBoolText value b) ∧ ((name, FlagKind.int) ∈ flags → ∃ n, IsIntText value n)

/-- These words give these values to these flags, one after the other. -/
inductive Settings (flags : List (GoString × FlagKind)) : List GoString → List (GoString × GoString) → Prop
  | nil : Settings flags [] []
  | cons {name value : GoString} {words rest : List GoString} {settings : List (GoString × GoString)} :
      Spells flags name value words → Valid flags name value → Settings flags rest settings →
      Settings flags (words ++ rest) ((name, value) :: settings)

/-- No flags are looked for in these words: there are none, or the first is `--`, or `-`, or has no dash. -/
def Stops (words : List GoString) : Prop :=
  words = [] ∨ ∃ w rest, words = w :: rest ∧ (w = ascii "--" ∨ w = ascii "-" ∨ w.head? ≠ some 45)

/-- The word asks for help. -/
def AsksHelp (w : GoString) : Prop :=
  ∃ d name, IsDash d ∧ (name = ascii "help" ∨ name = ascii "h") ∧
    (w = d ++ name ∨ ∃ value, w = d ++ name ++ ascii "=" ++ value)

/-- The last value that the flag is given satisfies `P`; if it is given none, `Q` holds. -/
def Last (settings : List (GoString × GoString)) (name : String) (P : GoString → Prop) (Q : Prop) : Prop :=
  (∃ before value after, settings = before ++ (ascii name, value) :: after ∧ (∀ x ∈ after, x.1 ≠ ascii name) ∧ P value) ∨
  ((∀ x ∈ settings, x.1 ≠ ascii name) ∧ Q)

/-- The server's variables after these settings. -/
structure ServerFlagsAre (settings : List (GoString × GoString)) (f : ServerFlags) : Prop where
  config : Last settings "config" (f.config = ·) (f.config = [])
  listen : Last settings "listen" (f.listen = ·) (f.listen = ascii "localhost:8080")
  dumpConfig : Last settings "dump-config" (IsBoolText · f.dumpConfig) (f.dumpConfig = false)
  infile : Last settings "infile" (f.infile = ·) (f.infile = ascii "-")
  metadata : Last settings "metadata" (f.metadata = ·) (f.metadata = [])
  numVariants : Last settings "num-variants" (IsIntText · f.numVariants) (f.numVariants = 9)
  usernameVariant : Last settings "username-variant" (IsBoolText · f.usernameVariant) (f.usernameVariant = true)

/-- The client's variables after these settings. -/
structure ClientFlagsAre (settings : List (GoString × GoString)) (f : ClientFlags) : Prop where
  config : Last settings "config" (f.config = ·) (f.config = [])
  dumpConfig : Last settings "dump-config" (IsBoolText · f.dumpConfig) (f.dumpConfig = false)
  showPassword : Last settings "show-password" (IsBoolText · f.showPassword) (f.showPassword = false)
  infile : Last settings "infile" (f.infile = ·) (f.infile = ascii "-")
  target : Last settings "target" (f.target = ·) (f.target = ascii "http://localhost:8080")

end Migp.Spec
