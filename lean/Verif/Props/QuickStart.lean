import Verif.Props.CommandLine
/-!
# The quick start of the README, run on the model

A test of the model (see Props/RepoTests): the two programs with the flags, files and addresses of README.md, evaluated by the kernel.
-/
set_option Elab.async false
namespace Migp.RepoTests
open Migp.Mutator Migp.Example

/-- testdata/test_breach.txt, its second line (to bound the memory that the kernel needs). -/
def testBreach : Bytes := ascii "username1@example.com:password1\n"

/-- testdata/test_queries.txt, its lines -/
def testQueries : List Bytes := [ascii "username1@example.com:password1\n", ascii "username1@example.com:password\n",
  ascii "username1@example.com:\n", ascii "notexposed@example.com:1234\n"]

/-- README.md:17-29: `cat testdata/test_breach.txt | bin/server &` and `cat testdata/test_queries.txt | bin/client`; the number of
records loaded and refused, and what the client does. -/
def quickStart (queries : Bytes) : Option (Nat × Nat × ClientRun) :=
  match serverProgram ext [] ⟨fun _ => none, fun _ => none, testBreach⟩ ⟨7⟩ (fun _ _ => 0) (fun _ => 1000) with
  | .ran (.serving s kv successes failures) listen =>
    match clientProgram ext [] ⟨fun _ => none, fun _ => none, queries⟩
      (fun url => if url = ascii "http://" ++ listen ++ ascii "/config" then deliver s kv (fun _ _ => 0) (ascii "/config") []
        else .failed)
      (fun _ url body => if url = ascii "http://" ++ listen ++ ascii "/evaluate"
        then deliver s kv (fun _ _ => 0) (ascii "/evaluate") body else .failed)
      (fun k _ => ((k + 2 : Nat) : ZMod _)) (fun _ _ => 0) (fun _ => 1000) with
    | .ran r => some (successes, failures, r)
    | _ => none
  | _ => none

/-- The first and the last query. -/
example : quickStart (testQueries[0]! ++ testQueries[3]!) = some (1, 0, ⟨
    ascii "{\"username\":\"username1@example.com\",\"status\":\"password in breach\"}\n" ++
    ascii "{\"username\":\"notexposed@example.com\",\"status\":\"password not in breach\"}\n", false, .ok⟩) := by
  decide +kernel

/-- The second. -/
example : quickStart testQueries[1]! = some (1, 0, ⟨
    ascii "{\"username\":\"username1@example.com\",\"status\":\"similar password in breach\"}\n", false, .ok⟩) := by
  decide +kernel

/-- The third. -/
example : quickStart testQueries[2]! = some (1, 0, ⟨
    ascii "{\"username\":\"username1@example.com\",\"status\":\"username in breach\"}\n", false, .ok⟩) := by
  decide +kernel

end Migp.RepoTests
