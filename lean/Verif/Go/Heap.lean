import Verif.Model.KVHeap
import Verif.Go.Endian
/-!
# Byte slices that refer to memory

The other models of the library's functions work with the contents of slices. Here a slice is a view of
a backing array on a heap, so that a write through one slice is seen through every other slice of the same
array. Arrays are numbered in the order of their allocation and never freed (Go's garbage collector frees
only what nothing refers to).

A program is a tree of single memory accesses - allocating an array, reading a byte, writing a byte - so
that it can be run by itself (`HM.run`) as well as interleaved with others (`Verif.Model.Parallel`).
-/
namespace Migp

/-- The backing arrays allocated so far. -/
abbrev Heap := List Bytes

/-- Contents of arrays by number; `none` for an array that does not exist. -/
abbrev Memory := Nat → Option Bytes

/-- The contents of the arrays of a heap. -/
def Heap.mem (h : Heap) : Memory := fun arr => h[arr]?

/-- Byte `i` of an array, if there is one. -/
def Memory.byte (M : Memory) (arr i : Nat) : Option UInt8 := (M arr).bind (·[i]?)

/-- A byte of an array (0 if there is none; it is proved that the code never asks for one that is not there). -/
def Heap.byte (h : Heap) (arr i : Nat) : UInt8 := ((h[arr]?.getD [])[i]?).getD 0

/-- The heap after writing byte `i` of an array. -/
def Heap.setByte (h : Heap) (arr i : Nat) (v : UInt8) : Heap := h.set arr ((h[arr]?.getD []).set i v)

/-- The bytes a slice shows. -/
def Heap.read (h : Heap) (sl : Slice) : Bytes := ((h[sl.arr]?.getD []).drop sl.off).take sl.len

/-- A slice that lies within its backing array. -/
def Heap.Valid (h : Heap) (sl : Slice) : Prop :=
  sl.len ≤ sl.cap ∧ (sl.cap = 0 ∨ ∃ a, h[sl.arr]? = some a ∧ sl.off + sl.cap ≤ a.length)

/-- The heap after writing `v` into array `arr` at `pos`. -/
def Heap.write (h : Heap) (arr pos : Nat) (v : Bytes) : Heap :=
  h.set arr (overwrite (h[arr]?.getD []) pos v)

/-- Go code that allocates, reads and writes memory, and returns a value or an error or panics. -/
inductive HM (α : Type) where
  /-- finished -/
  | done (r : Res α)
  /-- a new array with these contents; the rest is given its number -/
  | alloc (b : Bytes) (k : Nat → HM α)
  /-- read a byte -/
  | read (arr i : Nat) (k : UInt8 → HM α)
  /-- write a byte -/
  | write (arr i : Nat) (v : UInt8) (k : HM α)

namespace HM

/-- One piece of code after another; an error or a panic ends both. -/
def bind {α β : Type} : HM α → (α → HM β) → HM β
  | .done (.ok a), f => f a
  | .done (.err e), _ => .done (.err e)
  | .done (.panic p), _ => .done (.panic p)
  | .alloc b k, f => .alloc b fun a => (k a).bind f
  | .read a i k, f => .read a i fun v => (k v).bind f
  | .write a i v k, f => .write a i v (k.bind f)

instance : Monad HM where
  pure a := .done (.ok a)
  bind := bind

/-- Running the code by itself. -/
def run {α : Type} : HM α → Heap → Res α × Heap
  | .done r, h => (r, h)
  | .alloc b k, h => (k h.length).run (h ++ [b])
  | .read a i k, h => (k (h.byte a i)).run h
  | .write a i v k, h => k.run (h.setByte a i v)

/-- A computation that does not touch memory. -/
def lift {α : Type} (r : Res α) : HM α := .done r

/-- Returning an error. -/
def err {α : Type} (e : Err) : HM α := .done (.err e)

/-- A panic. -/
def panic {α : Type} (p : Panic) : HM α := .done (.panic p)

/-- `x, err := m` with the error still to be looked at. -/
def attempt {α : Type} : HM α → HM (Except Err α)
  | .done (.ok a) => .done (.ok (.ok a))
  | .done (.err e) => .done (.ok (.error e))
  | .done (.panic p) => .done (.panic p)
  | .alloc b k => .alloc b fun a => (k a).attempt
  | .read a i k => .read a i fun v => (k v).attempt
  | .write a i v k => .write a i v k.attempt

/-- A library function returns `b` in memory it has just allocated. (It may have spare capacity, which none of
the code looks at; it is left out.) -/
def new (b : Bytes) : HM Slice := .alloc b fun a => .done (.ok ⟨a, 0, b.length, b.length⟩)

/-- `make([]byte, n)` -/
def make (n : Nat) : HM Slice := new (makeBytes n)

/-- Reading `n` bytes from index `i`. -/
def readFrom (arr : Nat) : (i n : Nat) → HM Bytes
  | _, 0 => pure []
  | i, n + 1 => .read arr i fun b => readFrom arr (i + 1) n >>= fun bs => pure (b :: bs)

/-- A library function reads the whole of a slice. -/
def load (sl : Slice) : HM Bytes := readFrom sl.arr sl.off sl.len

/-- `sl[i]` -/
def getIdx (sl : Slice) (i : Nat) : HM UInt8 :=
  if i < sl.len then .read sl.arr (sl.off + i) pure else panic .bounds

/-- `sl[i] = v` -/
def setIdx (sl : Slice) (i : Nat) (v : UInt8) : HM Unit :=
  if i < sl.len then .write sl.arr (sl.off + i) v (pure ()) else panic .bounds

/-- `sl[lo:hi]`: up to the capacity. -/
def reslice (sl : Slice) (lo hi : Nat) : HM Slice :=
  if lo ≤ hi ∧ hi ≤ sl.cap then pure ⟨sl.arr, sl.off + lo, hi - lo, sl.cap - lo⟩ else panic .bounds

/-- `sl[lo:]`, which is `sl[lo:len(sl)]`. -/
def resliceFrom (sl : Slice) (lo : Nat) : HM Slice := reslice sl lo sl.len

/-- Writing bytes from index `i` on. -/
def writeFrom (arr : Nat) : (i : Nat) → Bytes → HM Unit
  | _, [] => pure ()
  | i, b :: bs => .write arr i b (writeFrom arr (i + 1) bs)

/-- `copy(dst, src)` for the contents `src` of a slice or a string. -/
def copyBytes (dst : Slice) (src : Bytes) : HM Unit := writeFrom dst.arr dst.off (src.take dst.len)

/-- `copy(dst, src)` for a slice. (All of `src` is read first; Go's `copy` gives the same result when the two
overlap.) -/
def copySlice (dst src : Slice) : HM Unit := load src >>= copyBytes dst

/-- `binary.BigEndian.PutUint16(b, v)` -/
def putUint16 (b : Slice) (v : UInt16) : HM Unit :=
  if 2 ≤ b.len then copyBytes b (be16 v) else panic .bounds

/-- `binary.BigEndian.PutUint32(b, v)` -/
def putUint32 (b : Slice) (v : UInt32) : HM Unit :=
  if 4 ≤ b.len then copyBytes b (be32 v) else panic .bounds

end HM
end Migp
