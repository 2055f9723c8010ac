import Verif.Go.Bufio
/-!
# `bufio.Scanner` on any `io.Reader`

`Go/Bufio` reads a file whose bytes are all there. Here the reader is arbitrary (a pipe, a terminal, a file on a failing
disk): it has a state, and each call of `Read` brings some bytes, or none at all, or an error (the end of the input is one). Every call
of `Read`, every line handed out and the end are events, so that one can see what the program knew when it asked for more.

A call that brings bytes together with an error is not modelled (`os.File` never does this).
-/
namespace Migp.Bufio

/-- An `io.Reader`: from its state and the room in the buffer, what a call of `Read` brings (`none` is an error or the end) and the
next state. -/
abbrev Reader (σ : Type) := σ → Nat → Option Bytes × σ

/-- What happens. -/
inductive InEvent where
  /-- a call of `Read`, and what it brought -/
  | read (got : Option Bytes)
  /-- `Scan` returns true, with this line -/
  | line (l : Bytes)
  /-- `Scan` returns false -/
  | stop
deriving DecidableEq

/-- bufio/scan.go: a scanner in the middle of `Scan`. `held` is `buf[start:end]`, `size` is `len(buf)`, `failed` is `err != nil`, and
`empties` is the variable `loop`: how many reads without a byte there were in a row. -/
structure Input (σ : Type) where
  state : σ
  start : Nat
  held : Bytes
  size : Nat
  failed : Bool
  empties : Nat

/-- `bufio.NewScanner` -/
def Input.new {σ : Type} (state : σ) : Input σ := ⟨state, 0, [], 0, false, 0⟩

/-- What the scanner does next. -/
inductive InStep (σ : Type) where
  | read (got : Option Bytes) (s : Input σ)
  | line (l : Bytes) (s : Input σ)
  | stop

/-- A turn of the inner loop: one call of `Read`. More bytes than there is room for are an error (`ErrBadReadCount`), and so are
101 empty reads in a row (`io.ErrNoProgress`). -/
def Input.read {σ : Type} (r : Reader σ) (s : Input σ) : InStep σ :=
  let room := s.size - (s.start + s.held.length)
  let x := r s.state room
  match x.1 with
  | none => .read none { s with state := x.2, failed := true, empties := 0 }
  | some b =>
    if room < b.length then .read none { s with state := x.2, failed := true, empties := 0 }
    else if b ≠ [] then .read (some b) { s with state := x.2, held := s.held ++ b, empties := 0 }
    else if 100 < s.empties + 1 then .read none { s with state := x.2, failed := true, empties := 0 }
    else .read (some []) { s with state := x.2, empties := s.empties + 1 }

/-- Making room in the buffer; `none` is `ErrTooLong`. -/
def Input.room {σ : Type} (s : Input σ) : Option (Input σ) :=
  let s := if 0 < s.start ∧ (s.start + s.held.length = s.size ∨ s.size / 2 < s.start) then
      { s with start := 0 } else s
  if s.start + s.held.length = s.size then
    if 65536 ≤ s.size then none
    else some { s with start := 0, size := min (if s.size * 2 = 0 then 4096 else s.size * 2) 65536 }
  else some s

/-- The loop of `Scan`, up to the next event. -/
def Input.step {σ : Type} (r : Reader σ) (s : Input σ) : InStep σ :=
  if 0 < s.empties then s.read r
  else
    let t := if s.held ≠ [] ∨ s.failed then scanLines s.held s.failed else (0, none)
    let s := { s with start := s.start + t.1, held := s.held.drop t.1 }
    match t.2 with
    | some line => .line line s
    | none =>
      if s.failed then .stop
      else
        match s.room with
        | none => .stop
        | some s => s.read r

/-- The first `n` events of `for scanner.Scan() { … }`. -/
def Input.run {σ : Type} (r : Reader σ) : (n : Nat) → Input σ → List InEvent
  | 0, _ => []
  | n + 1, s =>
    match s.step r with
    | .read got s => .read got :: s.run r n
    | .line l s => .line l :: s.run r n
    | .stop => [.stop]

/-- A file of which `Read` delivers pieces of any positive size until `readable` bytes were delivered, and then reports the end or an
error. The state is what was not delivered yet of these. -/
def diskReader (chunk : Nat → Nat) : Reader Bytes := fun rest room =>
  if rest = [] then (none, [])
  else
    let n := min (max 1 (chunk rest.length)) room
    (some (rest.take n), rest.drop n)

end Migp.Bufio
