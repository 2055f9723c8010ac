import Verif.Model.KVRun
/-!
# `cmd/server/kv.go` with slices that share memory

The store's values are Go slices: views of backing arrays on a heap. `Put` stores the caller's slice
without copying, `Get` hands out the stored slice itself, and `Append` is Go's `append`: it writes into
the spare capacity of the backing array when there is enough, and otherwise allocates a new array. How
much spare capacity the new array has is up to the run-time (`append`'s growth policy), so it is
left open here, as is what the spare bytes contain.
-/
namespace Migp

/-- A slice: backing array, offset, length and capacity. A slice of capacity 0 (nil in particular) has
no backing array. -/
structure Slice where
  arr : Nat
  off : Nat
  len : Nat
  cap : Nat
deriving DecidableEq

/-- `nil` -/
def Slice.nil : Slice := ⟨0, 0, 0, 0⟩

/-- The heap and the store's map. Addresses of arrays are numbers; `none` is not allocated. -/
structure HeapKV where
  mem : Nat → Option Bytes
  store : GoString → Slice

/-- The bytes a slice shows. -/
def HeapKV.read (st : HeapKV) (sl : Slice) : Bytes :=
  (((st.mem sl.arr).getD []).drop sl.off).take sl.len

/-- A slice that lies within its backing array. -/
def HeapKV.Valid (st : HeapKV) (sl : Slice) : Prop :=
  sl.len ≤ sl.cap ∧ (sl.cap = 0 ∨ ∃ a, st.mem sl.arr = some a ∧ sl.off + sl.cap ≤ a.length)

/-- kv.go:17-21: an empty map, on any heap. -/
def HeapKV.start (mem : Nat → Option Bytes) : HeapKV := ⟨mem, fun _ => Slice.nil⟩

/-- Writing bytes into an array at a position. -/
def overwrite (a : Bytes) (pos : Nat) (v : Bytes) : Bytes := a.take pos ++ v ++ a.drop (pos + v.length)

/-- What can happen to the store. -/
inductive HeapEv where
  /-- `Put(key, sl)` with any slice the caller holds -/
  | put (key : GoString) (sl : Slice)
  /-- `Put(key, b)` with a slice the caller has just made, on an array nobody else refers to -/
  | putNew (key : GoString) (b : Bytes)
  /-- `Append(key, b)`; `append` only reads its second argument, so its bytes are enough -/
  | append (key : GoString) (b : Bytes)
  /-- the caller allocates an array -/
  | alloc (b : Bytes)
deriving DecidableEq

/-- kv.go:24-37: one step of the store. -/
inductive HeapKV.Step : HeapKV → HeapEv → HeapKV → Prop
  /-- kv.go:27 `kv.store[id] = value` -/
  | put (st : HeapKV) (key : GoString) (sl : Slice) : st.Valid sl →
      Step st (.put key sl) ⟨st.mem, fun k => if k = key then sl else st.store k⟩
  /-- the same with a new array `b ++ spare` -/
  | putNew (st : HeapKV) (key : GoString) (b spare : Bytes) (a : Nat) : st.mem a = none →
      Step st (.putNew key b)
        ⟨fun x => if x = a then some (b ++ spare) else st.mem x,
         fun k => if k = key then ⟨a, 0, b.length, b.length + spare.length⟩ else st.store k⟩
  /-- kv.go:35 `append` with enough capacity: the array is written to -/
  | appendInPlace (st : HeapKV) (key : GoString) (v : Bytes) (a : Bytes) :
      (st.store key).len + v.length ≤ (st.store key).cap →
      (v ≠ [] → st.mem (st.store key).arr = some a) →
      Step st (.append key v)
        ⟨fun x => if v ≠ [] ∧ x = (st.store key).arr then
            some (overwrite a ((st.store key).off + (st.store key).len) v) else st.mem x,
         fun k => if k = key then { st.store key with len := (st.store key).len + v.length }
           else st.store k⟩
  /-- kv.go:35 `append` without enough capacity: a new array, with any amount of spare capacity -/
  | appendGrow (st : HeapKV) (key : GoString) (v spare : Bytes) (a : Nat) :
      (st.store key).cap < (st.store key).len + v.length → st.mem a = none →
      Step st (.append key v)
        ⟨fun x => if x = a then some (st.read (st.store key) ++ v ++ spare) else st.mem x,
         fun k => if k = key then
             ⟨a, 0, (st.store key).len + v.length, (st.store key).len + v.length + spare.length⟩
           else st.store k⟩
  /-- an allocation elsewhere in the program -/
  | alloc (st : HeapKV) (b : Bytes) (a : Nat) : st.mem a = none →
      Step st (.alloc b) ⟨fun x => if x = a then some b else st.mem x, st.store⟩

/-- A sequence of steps. -/
inductive HeapKV.Run : HeapKV → List HeapEv → HeapKV → Prop
  | nil (st : HeapKV) : Run st [] st
  | cons {st st' st'' : HeapKV} {ev : HeapEv} {evs : List HeapEv} :
      HeapKV.Step st ev st' → Run st' evs st'' → Run st (ev :: evs) st''

/-- kv.go:40-44: the slice in the map, not a copy. -/
def HeapKV.get (st : HeapKV) (key : GoString) : Slice := st.store key

/-- No caller puts a slice whose array somebody else may refer to. -/
def NoSharedPut (evs : List HeapEv) : Prop := ∀ key sl, HeapEv.put key sl ∉ evs

/-- The calls of an event sequence, by value. -/
def HeapEv.op : HeapEv → Option Spec.KVOp
  | .put _ _ => none
  | .putNew key b => some (.put key b)
  | .append key b => some (.append key b)
  | .alloc _ => none

end Migp
