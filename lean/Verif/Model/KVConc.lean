import Verif.Model.KVRun
import Verif.Spec.Linearizable
/-!
# `cmd/server/kv.go` with goroutines

Any number of goroutines call `Put`, `Append` and `Get`. Each method is a sequence of small steps, and the
steps of different goroutines are interleaved arbitrarily. A write to a Go map is not atomic: while one is in
progress, anyone who looks at the map may see anything. `sync.RWMutex` is modelled by its exclusion
contract (a writer excludes everyone, readers exclude writers); its preference for waiting writers only
removes schedules.
-/
namespace Migp
open Spec (KVOp Ev)

/-- Which lock a method takes (kv.go:25, 33: `Lock`; kv.go:41: `RLock`). -/
inductive LockKind where
  | write
  | read
deriving DecidableEq

/-- kv.go:25, 33, 41 -/
def lockOf : KVOp → LockKind
  | .put _ _ => .write
  | .append _ _ => .write
  | .get _ => .read

/-- Where a goroutine is in its current call. -/
inductive PC where
  /-- not in a call -/
  | idle
  /-- called, does not hold the lock -/
  | called (op : KVOp)
  /-- kv.go:25, 33, 41 passed: holds the lock -/
  | locked (op : KVOp)
  /-- kv.go:35, 43: has read `kv.store[id]` -/
  | loaded (op : KVOp) (v : Bytes)
  /-- kv.go:27, 35: is writing `new` to `kv.store[id]`; `saved` is the map it found -/
  | writing (op : KVOp) (id : GoString) (saved : GoString → Bytes) (new : Bytes)
  /-- has evaluated its result, still holds the lock -/
  | finished (op : KVOp) (r : Bytes)
  /-- the deferred unlock is done -/
  | unlocked (op : KVOp) (r : Bytes)

/-- The store, its lock (kv.go:11-14) and the goroutines. -/
structure Conc where
  store : GoString → Bytes
  writer : Bool
  readers : Nat
  pc : Nat → PC

/-- kv.go:17-21: a new store, no goroutine in a call. -/
def Conc.start : Conc := ⟨fun _ => [], false, 0, fun _ => .idle⟩

/-- Goroutine `t` moves. -/
def Conc.at (s : Conc) (t : Nat) (p : PC) : Nat → PC := fun t' => if t' = t then p else s.pc t'

/-- The steps, with what can be observed of them. -/
inductive Conc.Step : Conc → Option Ev → Conc → Prop
  /-- a goroutine calls a method -/
  | call (s : Conc) (t : Nat) (op : KVOp) : s.pc t = .idle →
      Step s (some (.inv t op)) { s with pc := s.at t (.called op) }
  /-- kv.go:25, 33 `kv.lock.Lock()` -/
  | lock (s : Conc) (t : Nat) (op : KVOp) : s.pc t = .called op → lockOf op = .write →
      s.writer = false → s.readers = 0 →
      Step s none { s with writer := true, pc := s.at t (.locked op) }
  /-- kv.go:41 `kv.lock.RLock()` -/
  | rlock (s : Conc) (t : Nat) (op : KVOp) : s.pc t = .called op → lockOf op = .read →
      s.writer = false →
      Step s none { s with readers := s.readers + 1, pc := s.at t (.locked op) }
  /-- kv.go:35 reads `kv.store[id]` -/
  | loadAppend (s : Conc) (t : Nat) (id : GoString) (v : Bytes) : s.pc t = .locked (.append id v) →
      Step s none { s with pc := s.at t (.loaded (.append id v) (s.store id)) }
  /-- kv.go:43 reads `kv.store[id]` -/
  | loadGet (s : Conc) (t : Nat) (id : GoString) : s.pc t = .locked (.get id) →
      Step s none { s with pc := s.at t (.loaded (.get id) (s.store id)) }
  /-- kv.go:43 `return kv.store[id], nil` -/
  | retGet (s : Conc) (t : Nat) (id : GoString) (b : Bytes) : s.pc t = .loaded (.get id) b →
      Step s none { s with pc := s.at t (.finished (.get id) b) }
  /-- kv.go:27 `kv.store[id] = value` begins -/
  | beginPut (s : Conc) (t : Nat) (id : GoString) (v : Bytes) (junk : GoString → Bytes) :
      s.pc t = .locked (.put id v) →
      Step s none { s with store := junk, pc := s.at t (.writing (.put id v) id s.store v) }
  /-- kv.go:35 `kv.store[id] = append(…, value...)` begins to write -/
  | beginAppend (s : Conc) (t : Nat) (id : GoString) (v b : Bytes) (junk : GoString → Bytes) :
      s.pc t = .loaded (.append id v) b →
      Step s none { s with store := junk, pc := s.at t (.writing (.append id v) id s.store (b ++ v)) }
  /-- kv.go:27, 35 the write is done; kv.go:28, 36 `return nil` -/
  | endWrite (s : Conc) (t : Nat) (op : KVOp) (id : GoString) (saved : GoString → Bytes) (new : Bytes) :
      s.pc t = .writing op id saved new →
      Step s none { s with store := fun k => if k = id then new else saved k,
                           pc := s.at t (.finished op []) }
  /-- kv.go:26, 34 deferred `kv.lock.Unlock()` -/
  | unlock (s : Conc) (t : Nat) (op : KVOp) (r : Bytes) : s.pc t = .finished op r →
      lockOf op = .write → Step s none { s with writer := false, pc := s.at t (.unlocked op r) }
  /-- kv.go:42 deferred `kv.lock.RUnlock()` -/
  | runlock (s : Conc) (t : Nat) (op : KVOp) (r : Bytes) : s.pc t = .finished op r →
      lockOf op = .read →
      Step s none { s with readers := s.readers - 1, pc := s.at t (.unlocked op r) }
  /-- the method returns to its caller -/
  | ret (s : Conc) (t : Nat) (op : KVOp) (r : Bytes) : s.pc t = .unlocked op r →
      Step s (some (.ret t r)) { s with pc := s.at t .idle }

/-- A run from a new store: what was observed and the state reached. -/
inductive Conc.Exec : List Ev → Conc → Prop
  | start : Exec [] Conc.start
  | step {h : List Ev} {s s' : Conc} {l : Option Ev} :
      Exec h s → Conc.Step s l s' → Exec (h ++ l.toList) s'

/-- The goroutine's next step reads the map. -/
def PC.Reads : PC → Prop
  | .locked (.append _ _) => True
  | .locked (.get _) => True
  | _ => False

/-- The goroutine is about to write to the map, or is writing to it. -/
def PC.Writes : PC → Prop
  | .locked (.put _ _) => True
  | .loaded (.append _ _) _ => True
  | .writing _ _ _ _ => True
  | _ => False

end Migp
