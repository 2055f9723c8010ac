import Verif.Model.LibraryHeap
/-!
# What a call does to memory
-/
namespace Migp.Spec

/-- The contents of slice `sl` are `b`. -/
def Shows (M : Memory) (sl : Slice) (b : Bytes) : Prop :=
  sl.len ≤ sl.cap ∧ b.length = sl.len ∧ ∀ i < sl.len, M.byte sl.arr (sl.off + i) = b[i]?

/-- `sl`, with all of its capacity, lies within its array. -/
def Within (M : Memory) (sl : Slice) : Prop :=
  sl.len ≤ sl.cap ∧ (sl.cap = 0 ∨ ∃ a, M sl.arr = some a ∧ sl.off + sl.cap ≤ a.length)

/-- Every array that existed has the contents it had. -/
def Kept (M M' : Memory) : Prop := ∀ a b, M a = some b → M' a = some b

/-- The slice is of an array that exists in `M'` but did not in `M`. -/
def MadeSince (M M' : Memory) (sl : Slice) : Prop := M sl.arr = none ∧ M' sl.arr ≠ none

/-- A returned slice is of new memory and its contents are `b`. -/
def NewSlice (M M' : Memory) (sl : Slice) (b : Bytes) : Prop :=
  MadeSince M M' sl ∧ Within M' sl ∧ Shows M' sl b

/-- The outcome of code on the heap agrees with the outcome of the model on values: the same error or panic,
or values that are related. -/
def Agree {α β : Type} (x : Res α) (y : Res β) (returns : α → β → Prop) : Prop :=
  match x, y with
  | .ok a, .ok b => returns a b
  | .err e, .err e' => e = e'
  | .panic p, .panic p' => p = p'
  | _, _ => False

/-- Running `m` on heap `h` has the outcome `r` (the same error or panic, or values that are related)
and changes none of the memory that existed. -/
def Does {α β : Type} (h : Heap) (m : HM α) (r : Res β) (returns : Memory → α → β → Prop) : Prop :=
  Kept h.mem (m.run h).2.mem ∧ Agree (m.run h).1 r (returns (m.run h).2.mem)

/-- `m` returns newly made memory with the contents that `r` says, and changes none of the memory that
existed. -/
def DoesNew (h : Heap) (m : HM Slice) (r : Res Bytes) : Prop := Does h m r (NewSlice h.mem)

/-- The slices `Mutate` returns: new arrays, each its own, with the contents of the model on values. -/
def Variants (M0 M : Memory) (sls : List Slice) (vs : List Bytes) : Prop :=
  List.Forall₂ (NewSlice M0 M) sls vs ∧ (sls.map (·.arr)).Nodup

/-- What the slow hash returns: with the null hasher, its argument; otherwise new memory. -/
def SlowHashed (sh : SlowHasher) (M : Memory) (sl : Slice) (M' : Memory) (sl' : Slice) (b : Bytes) : Prop :=
  Shows M' sl' b ∧ (sh = .null → sl' = sl) ∧ (sh ≠ .null → NewSlice M M' sl' b)

/-- What `Request` returns. -/
structure Requested (M M' : Memory) (x : ClientRequestH × ClientRequestContextH)
    (y : ClientRequest × ClientRequestContext) : Prop where
  version : x.1.version = y.1.version
  bucketID : x.1.bucketID = y.1.bucketID
  blindElement : NewSlice M M' x.1.blindElement y.1.blindElement
  client : x.2.client = y.2.client
  input : NewSlice M M' x.2.input y.2.input
  blind : HEq x.2.blind y.2.blind

/-- The three return values of `Finalize` on values. -/
def _root_.Migp.Out.toRes : Out → Res (BreachStatus × Option Bytes × Option Err)
  | .ret status metadata err => .ok (status, metadata, err)
  | .panic p => .panic p

/-- What `Finalize` returns: the metadata is in new memory. -/
def Finalized (M M' : Memory) (x : FinalizeH) (y : BreachStatus × Option Bytes × Option Err) : Prop :=
  x.status = y.1 ∧ x.error = y.2.2 ∧
    match x.metadata, y.2.1 with
    | none, none => True
    | some sl, some b => NewSlice M M' sl b
    | _, _ => False

/-- A request context on the heap that stands for one on values. -/
structure ContextShows (M : Memory) (x : ClientRequestContextH) (y : ClientRequestContext) : Prop where
  client : x.client = y.client
  input : Shows M x.input y.input
  blind : HEq x.blind y.blind

/-- A response on the heap that stands for one on values. -/
structure ResponseShows (M : Memory) (x : ServerResponseH) (y : ServerResponse) : Prop where
  version : x.version = y.version
  evaluatedElement : Shows M x.evaluatedElement y.evaluatedElement
  bucketContents : Shows M x.bucketContents y.bucketContents

/-- A request on the heap that stands for one on values. -/
structure RequestShows (M : Memory) (x : ClientRequestH) (y : ClientRequest) : Prop where
  version : x.version = y.version
  bucketID : x.bucketID = y.bucketID
  blindElement : Shows M x.blindElement y.blindElement

/-- What `HandleRequest` returns: the element is in new memory, the bucket is the store's own slice. -/
structure Handled (M : Memory) (bucket : Slice) (M' : Memory) (x : ServerResponseH) (y : ServerResponse) : Prop where
  version : x.version = y.version
  evaluatedElement : NewSlice M M' x.evaluatedElement y.evaluatedElement
  bucketContents : Shows M' x.bucketContents y.bucketContents
  bucketIs : x.bucketContents = bucket

/-- Between `M1` and `M2` nothing was written to the arrays made since `M` (all others may have been
overwritten, and more may have been allocated). -/
def OldOverwritten (M M1 M2 : Memory) : Prop := ∀ a b, M a = none → M1 a = some b → M2 a = some b

/-- The receiver after `UnmarshalBinary(data)`, and the error it returned if any; `M'` is the memory by then. -/
structure Received (M : Memory) (b : Bytes) (data : Slice) (r : ServerResponseH) (M' : Memory)
    (r' : ServerResponseH) (e : Option Err) : Prop where
  /-- Fewer than 4 bytes: an error (`io.EOF` for none, `io.ErrUnexpectedEOF` for some) and the receiver is as before. -/
  noVersion : b.length < 4 → e = some (if b = [] then .eof else .unexpectedEOF) ∧ r' = r
  /-- Fewer than 37 bytes: an error (`io.EOF` if nothing follows the version), but the receiver has the new version and a new element which holds what
  there was of it, then zeros; the bucket is the old one. -/
  noElement : 4 ≤ b.length → b.length < 37 → e = some (if b.length = 4 then .eof else .elementTooShort) ∧
    r'.version.toNat = (b.take 4).foldl (fun n x => 256 * n + x.toNat) 0 ∧
    NewSlice M M' r'.evaluatedElement (b.drop 4 ++ List.replicate (37 - b.length) 0) ∧
    r'.bucketContents = r.bucketContents
  /-- Otherwise: no error, and the bucket is a part of `data` itself. -/
  complete : 37 ≤ b.length → e = none ∧
    r'.version.toNat = (b.take 4).foldl (fun n x => 256 * n + x.toNat) 0 ∧
    NewSlice M M' r'.evaluatedElement ((b.drop 4).take 33) ∧
    r'.bucketContents = ⟨data.arr, data.off + 37, data.len - 37, data.cap - 37⟩ ∧
    Shows M' r'.bucketContents (b.drop 37)

end Migp.Spec
