import Verif.Model.LibraryHeap
import Verif.Model.MutatorHeap
import Verif.Model.CmdServer
/-!
# Loading the input file, with slices that share memory

`cmd/server/main.go:77-93` passes to `insert` slices of the scanner's buffer, which the scanner overwrites when
it reads on. `insert` and everything it calls are modelled here on the heap.
-/
namespace Migp
open HM

/-- kv.go:11-14: the map. -/
abbrev StoreH := GoString → Slice

/-- What the runtime puts into the spare capacity of an array it allocates for `append` (its length is the
amount of spare capacity). -/
abbrev Growth := Heap → Slice → Nat → Bytes

/-- `append(sl, v...)` -/
def appendSlice (grow : Growth) (sl : Slice) (v : Bytes) (h : Heap) : Slice × Heap :=
  if sl.len + v.length ≤ sl.cap then
    ({ sl with len := sl.len + v.length }, h.write sl.arr (sl.off + sl.len) v)
  else
    (⟨h.length, 0, sl.len + v.length, sl.len + v.length + (grow h sl v.length).length⟩,
      h ++ [h.read sl ++ v ++ grow h sl v.length])

/-- kv.go:32-37 -/
def StoreH.append (grow : Growth) (kv : StoreH) (id : GoString) (value : Slice) (h : Heap) : StoreH × Heap :=
  let r := appendSlice grow (kv id) (h.read value) h
  (fun k => if k = id then r.1 else kv k, r.2)

/-- cmd/server/server.go:64-73 -/
def insertVariantsH (E : Ext) (grow : Growth) (s : Server) (username metadata : Slice) (bucketIDHex : GoString) :
    (variants : List Slice) → StoreH → Heap → StoreH × Res Unit × Heap
  | [], kv, h => (kv, .ok (), h)
  | variant :: rest, kv, h =>
    match (s.encryptBucketEntryH E username variant MetadataSimilarPassword metadata).run h with
    | (.ok newEntry, h) =>
      insertVariantsH E grow s username metadata bucketIDHex rest (kv.append grow bucketIDHex newEntry h).1
        (kv.append grow bucketIDHex newEntry h).2
    | (.err e, h) => (kv, .err e, h)
    | (.panic p, h) => (kv, .panic p, h)

/-- cmd/server/server.go:75-86 -/
def insertUsernameH (E : Ext) (grow : Growth) (s : Server) (username metadata : Slice) (bucketIDHex : GoString)
    (includeUsernameVariant : Bool) (kv : StoreH) (h : Heap) : StoreH × Res Unit × Heap :=
  if includeUsernameVariant then
    match (s.encryptBucketEntryH E username Slice.nil MetadataBreachedUsername metadata).run h with
    | (.ok newEntry, h) =>
      ((kv.append grow bucketIDHex newEntry h).1, .ok (), (kv.append grow bucketIDHex newEntry h).2)
    | (.err e, h) => (kv, .err e, h)
    | (.panic p, h) => (kv, .panic p, h)
  else (kv, .ok (), h)

/-- cmd/server/server.go:63-87: after the first entry. -/
def insertRestH (E : Ext) (grow : Growth) (s : Server) (username password metadata : Slice)
    (bucketIDHex : GoString) (numVariants : Int) (includeUsernameVariant : Bool) (kv : StoreH) (h : Heap) :
    StoreH × Res Unit × Heap :=
  match (Mutator.mutateH Mutator.dasRules password numVariants).run h with
  | (.err e, h) => (kv, .err e, h)
  | (.panic p, h) => (kv, .panic p, h)
  | (.ok passwordVariants, h) =>
    match insertVariantsH E grow s username metadata bucketIDHex passwordVariants kv h with
    | (kv, .err e, h) => (kv, .err e, h)
    | (kv, .panic p, h) => (kv, .panic p, h)
    | (kv, .ok (), h) => insertUsernameH E grow s username metadata bucketIDHex includeUsernameVariant kv h

/-- cmd/server/server.go:51-87 -/
def insertRecordH (E : Ext) (grow : Growth) (s : Server) (username password metadata : Slice)
    (numVariants : Int) (includeUsernameVariant : Bool) (kv : StoreH) (h : Heap) : StoreH × Res Unit × Heap :=
  match (s.bucketIDH E username).run h with
  | (.err e, h) => (kv, .err e, h)
  | (.panic p, h) => (kv, .panic p, h)
  | (.ok id, h) =>
    match (s.encryptBucketEntryH E username password MetadataBreachedPassword metadata).run h with
    | (.err e, h) => (kv, .err e, h)
    | (.panic p, h) => (kv, .panic p, h)
    | (.ok newEntry, h) =>
      insertRestH E grow s username password metadata (BucketIDToHex id) numVariants includeUsernameVariant
        (kv.append grow (BucketIDToHex id) newEntry h).1 (kv.append grow (BucketIDToHex id) newEntry h).2

/-- `bytes.SplitN(s, []byte{sep}, 2)` returns slices of `s`; the first has no spare capacity. -/
def splitN2H (s : Slice) (sep : UInt8) (h : Heap) : List Slice :=
  match (h.read s).idxOf? sep with
  | some i => [⟨s.arr, s.off, i, i⟩, ⟨s.arr, s.off + (i + 1), s.len - (i + 1), s.cap - (i + 1)⟩]
  | none => [s]

/-- cmd/server/main.go:78-92: what is done with a line. `[]byte(metadata)` makes a new slice. -/
def loadLineH (E : Ext) (grow : Growth) (s : Server) (metadata : GoString) (numVariants : Int)
    (includeUsernameVariant : Bool) (token : Slice) (kv : StoreH) (h : Heap) : StoreH × Res Bool × Heap :=
  match splitN2H token 58 h with
  | [username, password] =>
    match insertRecordH E grow s username password ⟨h.length, 0, metadata.length, metadata.length⟩ numVariants
        includeUsernameVariant kv (h ++ [metadata]) with
    | (kv, .panic p, h) => (kv, .panic p, h)
    | (kv, .err _, h) => (kv, .ok false, h)
    | (kv, .ok (), h) => (kv, .ok true, h)
  | _ => (kv, .ok false, h)

/-- What a call of `scanner.Scan` may do to memory: the scanner may overwrite the arrays it owns, and
allocate further ones; the token `scanner.Bytes()` is a slice of one of them and shows the line. Nothing else is
written to. -/
structure ScanStep (own : Nat → Prop) (h : Heap) (line : Bytes) (own' : Nat → Prop) (h' : Heap) (token : Slice) :
    Prop where
  grows : h.length ≤ h'.length
  others : ∀ a < h.length, ¬ own a → h'[a]? = h[a]?
  owned : ∀ a, own' a → own a ∨ h.length ≤ a ∧ a < h'.length
  token_own : own' token.arr
  token_valid : h'.Valid token
  token_shows : h'.read token = line

/-- What loading leads to: the store, the heap and the counters, or a crash. -/
inductive LoadH where
  | done (kv : StoreH) (h : Heap) (successes failures : Nat)
  | crashed (p : Panic)

/-- cmd/server/main.go:77-93: the loop over the lines the scanner finds. -/
inductive ImportRun (E : Ext) (grow : Growth) (s : Server) (metadata : GoString) (numVariants : Int)
    (includeUsernameVariant : Bool) : (own : Nat → Prop) → Heap → StoreH → (successes failures : Nat) →
    (lines : List Bytes) → LoadH → Prop
  | done (own : Nat → Prop) (h : Heap) (kv : StoreH) (successes failures : Nat) :
      ImportRun E grow s metadata numVariants includeUsernameVariant own h kv successes failures []
        (.done kv h successes failures)
  | success {own own' : Nat → Prop} {h h' h'' : Heap} {kv kv' : StoreH} {successes failures : Nat}
      {line : Bytes} {lines : List Bytes} {token : Slice} {r : LoadH} :
      ScanStep own h line own' h' token →
      loadLineH E grow s metadata numVariants includeUsernameVariant token kv h' = (kv', .ok true, h'') →
      ImportRun E grow s metadata numVariants includeUsernameVariant own' h'' kv' (successes + 1) failures lines r →
      ImportRun E grow s metadata numVariants includeUsernameVariant own h kv successes failures (line :: lines) r
  | failure {own own' : Nat → Prop} {h h' h'' : Heap} {kv kv' : StoreH} {successes failures : Nat}
      {line : Bytes} {lines : List Bytes} {token : Slice} {r : LoadH} :
      ScanStep own h line own' h' token →
      loadLineH E grow s metadata numVariants includeUsernameVariant token kv h' = (kv', .ok false, h'') →
      ImportRun E grow s metadata numVariants includeUsernameVariant own' h'' kv' successes (failures + 1) lines r →
      ImportRun E grow s metadata numVariants includeUsernameVariant own h kv successes failures (line :: lines) r
  | crash {own own' : Nat → Prop} {h h' h'' : Heap} {kv kv' : StoreH} {successes failures : Nat}
      {line : Bytes} {lines : List Bytes} {token : Slice} {p : Panic} :
      ScanStep own h line own' h' token →
      loadLineH E grow s metadata numVariants includeUsernameVariant token kv h' = (kv', .panic p, h'') →
      ImportRun E grow s metadata numVariants includeUsernameVariant own h kv successes failures (line :: lines)
        (.crashed p)

end Migp
