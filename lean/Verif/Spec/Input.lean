import Verif.Go.Reader
import Verif.Spec.Lines
/-!
# Input that comes in pieces

What was read so far, and the whole lines in it.
-/
namespace Migp.Spec
open Bufio

/-- The bytes that were read. -/
def bytesRead : List InEvent → Bytes
  | [] => []
  | .read (some b) :: t => b ++ bytesRead t
  | _ :: t => bytesRead t

/-- The lines that were handed out. -/
def linesOut : List InEvent → List Bytes
  | [] => []
  | .line l :: t => l :: linesOut t
  | _ :: t => linesOut t

/-- `lines` are the lines of `d` that end with a newline, and `rest` is what comes after the last newline. -/
def WholeLinesOf (d : Bytes) (lines : List Bytes) (rest : Bytes) : Prop :=
  d = lines.flatMap (fun l => l ++ [10]) ++ rest ∧ (∀ l ∈ lines, 10 ∉ l) ∧ 10 ∉ rest

end Migp.Spec
