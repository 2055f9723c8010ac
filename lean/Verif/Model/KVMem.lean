import Verif.Model.KVConc
import Verif.Model.KVHeap
/-!
# `cmd/server/kv.go` with goroutines and slices that share memory

The two models `Verif.Model.KVConc` (goroutines, values copied) and `Verif.Model.KVHeap` (slices of shared arrays,
one operation at a time) in one. `Get` gives its caller the stored slice itself, and the caller looks at the bytes
after the lock has been released, at any time and in any order, while `Append` calls of other goroutines write one
byte at a time into the spare capacity of the same backing array.

`Put` stores its caller's slice: here the caller gives it a new one and keeps no other reference to its array
(cmd/server never calls `Put`). `append`'s source is only read, so its bytes are enough.
-/
namespace Migp
open Spec (KVOp Ev)

/-- The heap: arrays by address. -/
abbrev Mem := Nat → Option Bytes

/-- The bytes a slice shows. -/
def Mem.read (mem : Mem) (sl : Slice) : Bytes := (((mem sl.arr).getD []).drop sl.off).take sl.len

/-- Where a goroutine is in its current call. -/
inductive MPC where
  /-- not in a call -/
  | idle
  /-- called, does not hold the lock -/
  | called (op : KVOp)
  /-- kv.go:25, 33, 41 passed: holds the lock -/
  | locked (op : KVOp)
  /-- kv.go:35, 43: has read the slice header `kv.store[id]` -/
  | loaded (op : KVOp) (sl : Slice)
  /-- kv.go:35 `append` in place: has written `n` bytes of `v` behind the end of `sl` -/
  | copying (id : GoString) (v : Bytes) (sl : Slice) (n : Nat)
  /-- kv.go:35: has evaluated `append(kv.store[id], value...)`, which is `new` -/
  | storing (id : GoString) (v : Bytes) (old new : Slice)
  /-- kv.go:27, 35: is writing `new` to `kv.store[id]`; `saved` is the map it found -/
  | writing (op : KVOp) (id : GoString) (saved : GoString → Slice) (new : Slice)
  /-- has evaluated its result, still holds the lock -/
  | finished (op : KVOp) (r : Slice)
  /-- the deferred unlock is done -/
  | unlocked (op : KVOp) (r : Slice)

/-- The heap, the store's map and lock, the goroutines, and what `Get` has handed out so far: goroutine, slice, and
(for the statements only) the bytes it showed at that moment. -/
structure MConc where
  mem : Mem
  store : GoString → Slice
  writer : Bool
  readers : Nat
  pc : Nat → MPC
  given : List (Nat × Slice × Bytes)

/-- kv.go:17-21: a new store on any heap, no goroutine in a call. -/
def MConc.start (mem : Mem) : MConc := ⟨mem, fun _ => Slice.nil, false, 0, fun _ => .idle, []⟩

/-- Goroutine `t` moves. -/
def MConc.at (s : MConc) (t : Nat) (p : MPC) : Nat → MPC := fun t' => if t' = t then p else s.pc t'

/-- The steps, with what can be observed of them. -/
inductive MConc.Step : MConc → Option Ev → MConc → Prop
  /-- a goroutine calls a method -/
  | call (s : MConc) (t : Nat) (op : KVOp) : s.pc t = .idle →
      Step s (some (.inv t op)) { s with pc := s.at t (.called op) }
  /-- kv.go:25, 33 `kv.lock.Lock()` -/
  | lock (s : MConc) (t : Nat) (op : KVOp) : s.pc t = .called op → lockOf op = .write →
      s.writer = false → s.readers = 0 →
      Step s none { s with writer := true, pc := s.at t (.locked op) }
  /-- kv.go:41 `kv.lock.RLock()` -/
  | rlock (s : MConc) (t : Nat) (op : KVOp) : s.pc t = .called op → lockOf op = .read →
      s.writer = false →
      Step s none { s with readers := s.readers + 1, pc := s.at t (.locked op) }
  /-- kv.go:35 reads the slice header `kv.store[id]` -/
  | loadAppend (s : MConc) (t : Nat) (id : GoString) (v : Bytes) : s.pc t = .locked (.append id v) →
      Step s none { s with pc := s.at t (.loaded (.append id v) (s.store id)) }
  /-- kv.go:43 reads the slice header `kv.store[id]` -/
  | loadGet (s : MConc) (t : Nat) (id : GoString) : s.pc t = .locked (.get id) →
      Step s none { s with pc := s.at t (.loaded (.get id) (s.store id)) }
  /-- kv.go:43 `return kv.store[id], nil` -/
  | retGet (s : MConc) (t : Nat) (id : GoString) (sl : Slice) : s.pc t = .loaded (.get id) sl →
      Step s none { s with pc := s.at t (.finished (.get id) sl) }
  /-- kv.go:35 `append` with enough capacity: will write behind the end of the slice -/
  | beginCopy (s : MConc) (t : Nat) (id : GoString) (v : Bytes) (sl : Slice) :
      s.pc t = .loaded (.append id v) sl → sl.len + v.length ≤ sl.cap →
      Step s none { s with pc := s.at t (.copying id v sl 0) }
  /-- kv.go:35 one byte is written -/
  | copyByte (s : MConc) (t : Nat) (id : GoString) (v : Bytes) (sl : Slice) (n : Nat) (b : UInt8) (a : Bytes) :
      s.pc t = .copying id v sl n → v[n]? = some b → s.mem sl.arr = some a →
      Step s none { s with
        mem := fun x => if x = sl.arr then some (overwrite a (sl.off + sl.len + n) [b]) else s.mem x,
        pc := s.at t (.copying id v sl (n + 1)) }
  /-- kv.go:35 all bytes are written -/
  | endCopy (s : MConc) (t : Nat) (id : GoString) (v : Bytes) (sl : Slice) : s.pc t = .copying id v sl v.length →
      Step s none { s with pc := s.at t (.storing id v sl { sl with len := sl.len + v.length }) }
  /-- kv.go:35 `append` without enough capacity: a new array that nobody else refers to, with any amount of spare
  capacity -/
  | grow (s : MConc) (t : Nat) (id : GoString) (v : Bytes) (sl : Slice) (spare : Bytes) (a : Nat) :
      s.pc t = .loaded (.append id v) sl → sl.cap < sl.len + v.length → s.mem a = none →
      Step s none { s with
        mem := fun x => if x = a then some (s.mem.read sl ++ v ++ spare) else s.mem x,
        pc := s.at t (.storing id v sl ⟨a, 0, sl.len + v.length, sl.len + v.length + spare.length⟩) }
  /-- kv.go:35 `kv.store[id] = …` begins to write; whoever looks at the map now may see anything -/
  | beginAppend (s : MConc) (t : Nat) (id : GoString) (v : Bytes) (old new : Slice) (junk : GoString → Slice) :
      s.pc t = .storing id v old new →
      Step s none { s with store := junk, pc := s.at t (.writing (.append id v) id s.store new) }
  /-- kv.go:27 `kv.store[id] = value` begins; the caller's slice is on an array that nobody else refers to -/
  | beginPut (s : MConc) (t : Nat) (id : GoString) (v spare : Bytes) (a : Nat) (junk : GoString → Slice) :
      s.pc t = .locked (.put id v) → s.mem a = none →
      Step s none { s with
        mem := fun x => if x = a then some (v ++ spare) else s.mem x,
        store := junk,
        pc := s.at t (.writing (.put id v) id s.store ⟨a, 0, v.length, v.length + spare.length⟩) }
  /-- kv.go:27, 35 the write is done; kv.go:28, 36 `return nil` -/
  | endWrite (s : MConc) (t : Nat) (op : KVOp) (id : GoString) (saved : GoString → Slice) (new : Slice) :
      s.pc t = .writing op id saved new →
      Step s none { s with store := fun k => if k = id then new else saved k,
                           pc := s.at t (.finished op Slice.nil) }
  /-- kv.go:26, 34 deferred `kv.lock.Unlock()` -/
  | unlock (s : MConc) (t : Nat) (op : KVOp) (r : Slice) : s.pc t = .finished op r →
      lockOf op = .write → Step s none { s with writer := false, pc := s.at t (.unlocked op r) }
  /-- kv.go:42 deferred `kv.lock.RUnlock()` -/
  | runlock (s : MConc) (t : Nat) (op : KVOp) (r : Slice) : s.pc t = .finished op r →
      lockOf op = .read →
      Step s none { s with readers := s.readers - 1, pc := s.at t (.unlocked op r) }
  /-- the method returns to its caller, who has the slice from now on -/
  | ret (s : MConc) (t : Nat) (op : KVOp) (r : Slice) : s.pc t = .unlocked op r →
      Step s (some (.ret t (s.mem.read r)))
        { s with pc := s.at t .idle, given := (t, r, s.mem.read r) :: s.given }

/-- A run from a new store: what was observed and the state reached. -/
inductive MConc.Exec (mem : Mem) : List Ev → MConc → Prop
  | start : Exec mem [] (MConc.start mem)
  | step {h : List Ev} {s s' : MConc} {l : Option Ev} :
      Exec mem h s → MConc.Step s l s' → Exec mem (h ++ l.toList) s'

/-- A run from any state to a later one. -/
inductive MConc.Steps : MConc → MConc → Prop
  | refl (s : MConc) : Steps s s
  | step {s s' s'' : MConc} {l : Option Ev} : Steps s s' → MConc.Step s' l s'' → Steps s s''

/-- The next step of the goroutine writes byte `i` of array `a`. (The new arrays of `grow` and `beginPut` are
not known to anyone else yet.) -/
def MPC.WritesByte (p : MPC) (a i : Nat) : Prop :=
  ∃ id v sl n, p = .copying id v sl n ∧ n < v.length ∧ a = sl.arr ∧ i = sl.off + sl.len + n

/-- The slice contains byte `i` of array `a`. -/
def Slice.Covers (sl : Slice) (a i : Nat) : Prop := a = sl.arr ∧ sl.off ≤ i ∧ i < sl.off + sl.len

end Migp
