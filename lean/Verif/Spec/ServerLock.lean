import Verif.Model.ServerLock
import Verif.Spec.ServerConc
/-!
# Runs of the server with Go's lock
-/
namespace Migp.Spec

/-- A run of the server whose store has Go's lock: from each state one goroutine makes a step, or none does. -/
structure IsRunL {ι : Type} [DecidableEq ι] (E : Ext) (s : Server) (h : Heap) (jobs : ι → JobH) (run : Nat → SrvL ι) :
    Prop where
  start : run 0 = SrvL.start E s h jobs
  step : ∀ k, SrvL.Step (run k) (run (k + 1)) ∨ run (k + 1) = run k

/-- Memory, the store and the goroutines are as in the server whose lock is taken in one step. -/
structure SameServer {ι : Type} (c : SrvL ι) (b : Srv ι) : Prop where
  heap : c.heap = b.heap
  store : c.store = b.store
  code : c.code = b.code

/-- Fewer than 2^30 goroutines, which is what Go's lock is made for. -/
def Few (ι : Type) : Prop := ∀ L : List ι, L.Nodup → (L.length : Int) < 2 ^ 30

end Migp.Spec
