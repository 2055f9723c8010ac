import Verif.Spec.KV
/-!
# Histories of concurrent calls to the store, and when they are linearisable
-/
namespace Migp.Spec

/-- What can be observed of concurrent calls: goroutine `t` calls an operation, or its call returns.
Calls that return no bytes (`Put`, `Append`) return `[]`. -/
inductive Ev where
  | inv (t : Nat) (op : KVOp)
  | ret (t : Nat) (r : Bytes)
deriving DecidableEq

/-- An observation, or the instant at which a call takes effect. -/
inductive LEv where
  | inv (t : Nat) (op : KVOp)
  | lin (t : Nat) (op : KVOp) (r : Bytes)
  | ret (t : Nat) (r : Bytes)
deriving DecidableEq

def LEv.thread : LEv → Nat
  | .inv t _ => t
  | .lin t _ _ => t
  | .ret t _ => t

/-- Forget the instants. -/
def LEv.erase : LEv → Option Ev
  | .inv t op => some (.inv t op)
  | .lin _ _ _ => none
  | .ret t r => some (.ret t r)

/-- Keep only the instants. -/
def LEv.effect : LEv → Option (KVOp × Bytes)
  | .lin _ op r => some (op, r)
  | _ => none

/-- One goroutine's calls: each takes effect once, between call and return, and returns the result it had
at that instant. The last call may not have returned, or not even taken effect. -/
inductive ThreadOK : List LEv → Prop
  | none : ThreadOK []
  | called (t : Nat) (op : KVOp) : ThreadOK [.inv t op]
  | effective (t : Nat) (op : KVOp) (r : Bytes) : ThreadOK [.inv t op, .lin t op r]
  | returned (t : Nat) (op : KVOp) (r : Bytes) (rest : List LEv) : ThreadOK rest →
      ThreadOK (.inv t op :: .lin t op r :: .ret t r :: rest)

/-- A sequential execution of the store, with results. -/
def Legal (calls : List (KVOp × Bytes)) : Prop :=
  ∀ before op r after, calls = before ++ (op, r) :: after →
    match op with
    | .get key => Holds key (before.map Prod.fst) r
    | _ => r = []

/-- A history is linearisable when instants can be inserted such that every goroutine's calls are in
order and the calls, in the order of the instants, are a sequential execution. -/
def Linearizable (h : List Ev) : Prop :=
  ∃ l : List LEv, l.filterMap LEv.erase = h ∧
    (∀ t, ThreadOK (l.filter (fun e => e.thread = t))) ∧
    Legal (l.filterMap LEv.effect)

/-- The operations goroutine `t` has called, in order. -/
def invoked (t : Nat) (h : List Ev) : List KVOp :=
  h.filterMap (fun | .inv t' op => if t' = t then some op else none | .ret _ _ => none)

/-- How many of its calls have returned. -/
def numReturned (t : Nat) (h : List Ev) : Nat :=
  (h.filter (fun | .inv _ _ => false | .ret t' _ => t' = t)).length

/-- The operations of `t` that have returned, in order (a goroutine makes one call at a time). -/
def completed (t : Nat) (h : List Ev) : List KVOp := (invoked t h).take (numReturned t h)

/-- The values appended to a key by a list of operations. -/
def appendsTo (key : GoString) (ops : List KVOp) : List Bytes :=
  ops.filterMap (fun | .append k v => if k = key then some v else none | _ => none)

end Migp.Spec
