import Verif.Model.ServerConc
/-!
# The lock of the store as Go implements it

In `Verif.Model.ServerConc` a goroutine takes the lock of the store in one step, whenever nobody holds it. Here the
lock is `sync.RWMutex` of Go's library (src/sync/rwmutex.go), as the store of cmd/server uses it (kv.go:15, 25-26, 33-34,
41-42): counters that are changed atomically, an inner mutex for writers and two semaphores, every access to one of
which is a step of its own. A goroutine that wants to write keeps out the readers that come after it.
-/
namespace Migp

/-- `rwmutexMaxReaders` of src/sync/rwmutex.go -/
def maxReaders : Int := 2 ^ 30

/-- `sync.RWMutex`: the inner mutex, two counters (int32 in Go; that they stay in the range of int32 is a theorem) and two
semaphores. -/
structure RWMutex where
  w : Bool
  readerCount : Int
  readerWait : Int
  readerSem : Nat
  writerSem : Nat

/-- The zero value of `sync.RWMutex` (kv.go:17-21). -/
def RWMutex.zero : RWMutex := ⟨false, 0, 0, 0, 0⟩

/-- Where a goroutine is within a method of the lock. -/
inductive LockPc where
  /-- in no method, or at the beginning of one -/
  | idle
  /-- in `Lock`: has the inner mutex -/
  | hasW
  /-- in `Lock`: readers that come now will wait; there were `r` before -/
  | announced (r : Int)
  /-- in `Lock`: waits for the semaphore of the writer -/
  | sleepW
  /-- in `Unlock`: readers that come now need not wait; `n` that have come before are still to be told -/
  | releasing (n : Nat)
  /-- in `RLock`: waits for the semaphore of the readers -/
  | sleepR
  /-- in `RUnlock`: a writer is waiting -/
  | leaving
  /-- in `RUnlock`: it was waiting for this goroutine only -/
  | waking
  deriving DecidableEq

/-- Memory, the store, its lock, and what each goroutine still has to do. `fatal`: a goroutine has called `fatal`, which
ends the program. -/
structure SrvL (ι : Type) where
  heap : Heap
  store : GoString → Slice
  lock : RWMutex
  code : ι → SM JobOut
  pc : ι → LockPc
  fatal : Bool

/-- A single step of a goroutine. -/
inductive SrvL.Act {ι : Type} [DecidableEq ι] : SrvL ι → SrvL ι → Prop
  | alloc (s : SrvL ι) (t : ι) (b : Bytes) (k : Nat → SM JobOut) : s.pc t = .idle → s.code t = .alloc b k →
      Act s { s with heap := s.heap ++ [b], code := Function.update s.code t (k s.heap.length) }
  | grow (s : SrvL ι) (t : ι) (n : Nat) (k : Nat → Nat → SM JobOut) (x : Bytes) : s.pc t = .idle → s.code t = .grow n k →
      n ≤ x.length →
      Act s { s with heap := s.heap ++ [x], code := Function.update s.code t (k s.heap.length x.length) }
  | read (s : SrvL ι) (t : ι) (a i : Nat) (k : UInt8 → SM JobOut) : s.pc t = .idle → s.code t = .read a i k →
      Act s { s with code := Function.update s.code t (k (s.heap.byte a i)) }
  | write (s : SrvL ι) (t : ι) (a i : Nat) (v : UInt8) (k : SM JobOut) : s.pc t = .idle → s.code t = .write a i v k →
      Act s { s with heap := s.heap.setByte a i v, code := Function.update s.code t k }
  | mapGet (s : SrvL ι) (t : ι) (id : GoString) (k : Slice → SM JobOut) : s.pc t = .idle → s.code t = .mapGet id k →
      Act s { s with code := Function.update s.code t (k (s.store id)) }
  | mapSet (s : SrvL ι) (t : ι) (id : GoString) (sl : Slice) (k : SM JobOut) : s.pc t = .idle → s.code t = .mapSet id sl k →
      Act s { s with store := fun x => if x = id then sl else s.store x, code := Function.update s.code t k }
  /- `Lock` -/
  /-- `rw.w.Lock()` -/
  | lockW (s : SrvL ι) (t : ι) (k : SM JobOut) : s.pc t = .idle → s.code t = .lock k → s.lock.w = false →
      Act s { s with lock := { s.lock with w := true }, pc := Function.update s.pc t .hasW }
  /-- `r := rw.readerCount.Add(-rwmutexMaxReaders) + rwmutexMaxReaders` -/
  | announce (s : SrvL ι) (t : ι) : s.pc t = .hasW →
      Act s { s with lock := { s.lock with readerCount := s.lock.readerCount - maxReaders },
                     pc := Function.update s.pc t (.announced (s.lock.readerCount - maxReaders + maxReaders)) }
  /-- `if r != 0 &&` … : not so -/
  | alone (s : SrvL ι) (t : ι) (k : SM JobOut) : s.pc t = .announced 0 → s.code t = .lock k →
      Act s { s with pc := Function.update s.pc t .idle, code := Function.update s.code t k }
  /-- … `rw.readerWait.Add(r) != 0`: not so -/
  | awaitNone (s : SrvL ι) (t : ι) (r : Int) (k : SM JobOut) : s.pc t = .announced r → s.code t = .lock k → r ≠ 0 →
      s.lock.readerWait + r = 0 →
      Act s { s with lock := { s.lock with readerWait := s.lock.readerWait + r }, pc := Function.update s.pc t .idle,
                     code := Function.update s.code t k }
  /-- … `rw.readerWait.Add(r) != 0` -/
  | await (s : SrvL ι) (t : ι) (r : Int) : s.pc t = .announced r → r ≠ 0 → s.lock.readerWait + r ≠ 0 →
      Act s { s with lock := { s.lock with readerWait := s.lock.readerWait + r }, pc := Function.update s.pc t .sleepW }
  /-- `runtime_SemacquireRWMutex(&rw.writerSem, false, 0)` -/
  | acquireW (s : SrvL ι) (t : ι) (k : SM JobOut) : s.pc t = .sleepW → s.code t = .lock k → s.lock.writerSem ≠ 0 →
      Act s { s with lock := { s.lock with writerSem := s.lock.writerSem - 1 }, pc := Function.update s.pc t .idle,
                     code := Function.update s.code t k }
  /- `Unlock` -/
  /-- `r := rw.readerCount.Add(rwmutexMaxReaders)` -/
  | unlock (s : SrvL ι) (t : ι) (k : SM JobOut) : s.pc t = .idle → s.code t = .unlock k →
      s.lock.readerCount + maxReaders < maxReaders →
      Act s { s with lock := { s.lock with readerCount := s.lock.readerCount + maxReaders },
                     pc := Function.update s.pc t (.releasing (s.lock.readerCount + maxReaders).toNat),
                     code := Function.update s.code t k }
  /-- `if r >= rwmutexMaxReaders { fatal("sync: Unlock of unlocked RWMutex") }` -/
  | unlockFatal (s : SrvL ι) (t : ι) (k : SM JobOut) : s.pc t = .idle → s.code t = .unlock k →
      maxReaders ≤ s.lock.readerCount + maxReaders → Act s { s with fatal := true }
  /-- `for i := 0; i < int(r); i++ { runtime_Semrelease(&rw.readerSem, false, 0) }` -/
  | release (s : SrvL ι) (t : ι) (n : Nat) : s.pc t = .releasing (n + 1) →
      Act s { s with lock := { s.lock with readerSem := s.lock.readerSem + 1 },
                     pc := Function.update s.pc t (.releasing n) }
  /-- `rw.w.Unlock()` -/
  | unlockW (s : SrvL ι) (t : ι) : s.pc t = .releasing 0 →
      Act s { s with lock := { s.lock with w := false }, pc := Function.update s.pc t .idle }
  /- `RLock` -/
  /-- `if rw.readerCount.Add(1) < 0`: not so -/
  | rlock (s : SrvL ι) (t : ι) (k : SM JobOut) : s.pc t = .idle → s.code t = .rlock k → 0 ≤ s.lock.readerCount + 1 →
      Act s { s with lock := { s.lock with readerCount := s.lock.readerCount + 1 }, code := Function.update s.code t k }
  /-- `if rw.readerCount.Add(1) < 0` -/
  | rlockWait (s : SrvL ι) (t : ι) (k : SM JobOut) : s.pc t = .idle → s.code t = .rlock k → s.lock.readerCount + 1 < 0 →
      Act s { s with lock := { s.lock with readerCount := s.lock.readerCount + 1 }, pc := Function.update s.pc t .sleepR }
  /-- `runtime_SemacquireRWMutexR(&rw.readerSem, false, 0)` -/
  | acquireR (s : SrvL ι) (t : ι) (k : SM JobOut) : s.pc t = .sleepR → s.code t = .rlock k → s.lock.readerSem ≠ 0 →
      Act s { s with lock := { s.lock with readerSem := s.lock.readerSem - 1 }, pc := Function.update s.pc t .idle,
                     code := Function.update s.code t k }
  /- `RUnlock` -/
  /-- `if r := rw.readerCount.Add(-1); r < 0`: not so -/
  | runlock (s : SrvL ι) (t : ι) (k : SM JobOut) : s.pc t = .idle → s.code t = .runlock k → 0 ≤ s.lock.readerCount - 1 →
      Act s { s with lock := { s.lock with readerCount := s.lock.readerCount - 1 }, code := Function.update s.code t k }
  /-- `if r := rw.readerCount.Add(-1); r < 0` -/
  | runlockSlow (s : SrvL ι) (t : ι) (k : SM JobOut) : s.pc t = .idle → s.code t = .runlock k → s.lock.readerCount - 1 < 0 →
      s.lock.readerCount - 1 + 1 ≠ 0 → s.lock.readerCount - 1 + 1 ≠ -maxReaders →
      Act s { s with lock := { s.lock with readerCount := s.lock.readerCount - 1 }, pc := Function.update s.pc t .leaving,
                     code := Function.update s.code t k }
  /-- `if r+1 == 0 || r+1 == -rwmutexMaxReaders { fatal("sync: RUnlock of unlocked RWMutex") }` -/
  | runlockFatal (s : SrvL ι) (t : ι) (k : SM JobOut) : s.pc t = .idle → s.code t = .runlock k →
      s.lock.readerCount - 1 < 0 → (s.lock.readerCount - 1 + 1 = 0 ∨ s.lock.readerCount - 1 + 1 = -maxReaders) →
      Act s { s with fatal := true }
  /-- `if rw.readerWait.Add(-1) == 0`: not so -/
  | leave (s : SrvL ι) (t : ι) : s.pc t = .leaving → s.lock.readerWait - 1 ≠ 0 →
      Act s { s with lock := { s.lock with readerWait := s.lock.readerWait - 1 }, pc := Function.update s.pc t .idle }
  /-- `if rw.readerWait.Add(-1) == 0` -/
  | leaveLast (s : SrvL ι) (t : ι) : s.pc t = .leaving → s.lock.readerWait - 1 = 0 →
      Act s { s with lock := { s.lock with readerWait := s.lock.readerWait - 1 }, pc := Function.update s.pc t .waking }
  /-- `runtime_Semrelease(&rw.writerSem, false, 1)` -/
  | wake (s : SrvL ι) (t : ι) : s.pc t = .waking →
      Act s { s with lock := { s.lock with writerSem := s.lock.writerSem + 1 }, pc := Function.update s.pc t .idle }

/-- A single step; none after `fatal`. -/
def SrvL.Step {ι : Type} [DecidableEq ι] (s s' : SrvL ι) : Prop := s.fatal = false ∧ Act s s'

/-- A new server on some memory, with goroutines that have not begun (kv.go:17-21). -/
def SrvL.start {ι : Type} (E : Ext) (s : Server) (h : Heap) (jobs : ι → JobH) : SrvL ι :=
  ⟨h, fun _ => Slice.nil, RWMutex.zero, fun t => (jobs t).code E s, fun _ => .idle, false⟩

/-- A goroutine has ended. -/
def SrvL.Ended {ι : Type} (s : SrvL ι) (t : ι) (out : Res JobOut) : Prop := s.code t = .done out ∧ s.pc t = .idle

end Migp
