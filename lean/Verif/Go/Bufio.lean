import Verif.Go.Basic
/-!
# `bufio.Scanner` with `ScanLines`

The loop of `Scanner.Scan` (bufio/scan.go) with its buffer: 4096 bytes at first, doubled when it is full,
65536 at most. The reader delivers the bytes of a file in pieces of any positive size and then reports the end
(or an error: the scanner treats both alike, and `Err` is not called by the programs modelled here). A read
that delivers nothing without an error, or delivers bytes together with an error, does not happen with
`os.File` and is not modelled.
-/
namespace Migp.Bufio

/-- A scanner on a file. `held` is `buf[start:end]`, `size` is `len(buf)`, `ended` is whether the reader has
reported the end, `rest` is what it has not delivered. `chunk` says how many bytes the reader would deliver
when a given number is left. -/
structure Scanner where
  chunk : Nat → Nat
  rest : Bytes
  start : Nat
  held : Bytes
  size : Nat
  ended : Bool

/-- `bufio.NewScanner` -/
def Scanner.new (chunk : Nat → Nat) (file : Bytes) : Scanner :=
  { chunk, rest := file, start := 0, held := [], size := 0, ended := false }

/-- `dropCR` -/
def dropCR (data : Bytes) : Bytes := if data.getLast? = some 13 then data.dropLast else data

/-- `bufio.ScanLines`: how far to advance, and a token. -/
def scanLines (data : Bytes) (atEOF : Bool) : Nat × Option Bytes :=
  if atEOF ∧ data = [] then (0, none)
  else
    match data.idxOf? 10 with
    | some i => (i + 1, some (dropCR (data.take i)))
    | none => if atEOF then (data.length, some (dropCR data)) else (0, none)

/-- One turn of the loop in `Scan`. -/
inductive Turn where
  | token (line : Bytes) (s : Scanner)
  | stop
  | again (s : Scanner)

/-- The part of the loop that makes room in the buffer and reads. -/
def Scanner.fill (s : Scanner) : Turn :=
  -- shift the data to the beginning of the buffer
  let s := if 0 < s.start ∧ (s.start + s.held.length = s.size ∨ s.size / 2 < s.start) then
      { s with start := 0 } else s
  if s.start + s.held.length = s.size ∧ 65536 ≤ s.size then .stop -- ErrTooLong
  else
    let s := if s.start + s.held.length = s.size then
        { s with start := 0, size := min (if s.size * 2 = 0 then 4096 else s.size * 2) 65536 } else s
    -- s.r.Read(s.buf[s.end:len(s.buf)])
    if s.rest = [] then .again { s with ended := true }
    else
      let n := min (max 1 (s.chunk s.rest.length)) (s.size - (s.start + s.held.length))
      .again { s with held := s.held ++ s.rest.take n, rest := s.rest.drop n }

/-- One turn of the loop in `Scan`. (Tokens always advance the input, so the check for empty tokens does not
matter.) -/
def Scanner.turn (s : Scanner) : Turn :=
  let t := if s.held ≠ [] ∨ s.ended then scanLines s.held s.ended else (0, none)
  let s := { s with start := s.start + t.1, held := s.held.drop t.1 }
  match t.2 with
  | some line => .token line s
  | none => if s.ended then .stop else s.fill

/-- All tokens: `for scanner.Scan() { … scanner.Bytes() … }`. Each turn delivers a token, reads at least one
byte or learns that the input has ended, so `fuel` larger than three times the file never runs out. -/
def Scanner.run : (fuel : Nat) → Scanner → List Bytes
  | 0, _ => []
  | fuel + 1, s =>
    match s.turn with
    | .token line s => line :: s.run fuel
    | .stop => []
    | .again s => s.run fuel

/-- The lines the programs see in a file. -/
def scannedLines (chunk : Nat → Nat) (file : Bytes) : List Bytes :=
  (Scanner.new chunk file).run (3 * file.length + 2)

end Migp.Bufio
