import Verif.Model.LibraryHeap
import Verif.Model.MutatorHeap
import Verif.Model.CmdServer
import Verif.Model.Http
/-!
# The server's goroutines

Goroutines that load records into the store and goroutines that answer requests, as code whose steps are single
accesses: to a byte of memory, to the map of the store, or to its lock. In contrast to `Verif.Model.KVMem` the
goroutines run the whole of `insert`, `HandleRequest` and `MarshalBinary`, and the calls of the store are code, too.
-/
namespace Migp
open Spec (KVOp)

/-- Go code of the server. -/
inductive SM (α : Type) where
  /-- finished -/
  | done (r : Res α)
  /-- a new array with these contents -/
  | alloc (b : Bytes) (k : Nat → SM α)
  /-- `append` allocates an array of at least `n` bytes; the rest is given its number and its size -/
  | grow (n : Nat) (k : Nat → Nat → SM α)
  /-- read a byte -/
  | read (arr i : Nat) (k : UInt8 → SM α)
  /-- write a byte -/
  | write (arr i : Nat) (v : UInt8) (k : SM α)
  /-- `kv.lock.Lock()` -/
  | lock (k : SM α)
  /-- `kv.lock.Unlock()` -/
  | unlock (k : SM α)
  /-- `kv.lock.RLock()` -/
  | rlock (k : SM α)
  /-- `kv.lock.RUnlock()` -/
  | runlock (k : SM α)
  /-- `kv.store[id]` -/
  | mapGet (id : GoString) (k : Slice → SM α)
  /-- `kv.store[id] = sl` -/
  | mapSet (id : GoString) (sl : Slice) (k : SM α)

namespace SM

/-- One piece of code after another; an error or a panic ends both. -/
def bind {α β : Type} : SM α → (α → SM β) → SM β
  | .done (.ok a), f => f a
  | .done (.err e), _ => .done (.err e)
  | .done (.panic p), _ => .done (.panic p)
  | .alloc b k, f => .alloc b fun a => (k a).bind f
  | .grow n k, f => .grow n fun a c => (k a c).bind f
  | .read a i k, f => .read a i fun v => (k v).bind f
  | .write a i v k, f => .write a i v (k.bind f)
  | .lock k, f => .lock (k.bind f)
  | .unlock k, f => .unlock (k.bind f)
  | .rlock k, f => .rlock (k.bind f)
  | .runlock k, f => .runlock (k.bind f)
  | .mapGet id k, f => .mapGet id fun sl => (k sl).bind f
  | .mapSet id sl k, f => .mapSet id sl (k.bind f)

instance : Monad SM where
  pure a := .done (.ok a)
  bind := bind

/-- `x, err := m` with the error still to be looked at. -/
def attempt {α : Type} : SM α → SM (Except Err α)
  | .done (.ok a) => .done (.ok (.ok a))
  | .done (.err e) => .done (.ok (.error e))
  | .done (.panic p) => .done (.panic p)
  | .alloc b k => .alloc b fun a => (k a).attempt
  | .grow n k => .grow n fun a c => (k a c).attempt
  | .read a i k => .read a i fun v => (k v).attempt
  | .write a i v k => .write a i v k.attempt
  | .lock k => .lock k.attempt
  | .unlock k => .unlock k.attempt
  | .rlock k => .rlock k.attempt
  | .runlock k => .runlock k.attempt
  | .mapGet id k => .mapGet id fun sl => (k sl).attempt
  | .mapSet id sl k => .mapSet id sl k.attempt

/-- Code of the library, which does not know about the store. -/
def lift {α : Type} : HM α → SM α
  | .done r => .done r
  | .alloc b k => .alloc b fun a => lift (k a)
  | .read a i k => .read a i fun v => lift (k v)
  | .write a i v k => .write a i v (lift k)

end SM

/-- Copying `n` bytes one by one: from index `srcOff + i` of one array to index `dstOff + i` of another. -/
def copyS (dst dstOff src srcOff : Nat) : (n i : Nat) → SM Unit
  | 0, _ => pure ()
  | n + 1, i => .read src (srcOff + i) fun b => .write dst (dstOff + i) b (copyS dst dstOff src srcOff n (i + 1))

/-- `append(sl, value...)`: in place if the capacity is enough, otherwise in a new array. -/
def appendSliceS (sl value : Slice) : SM Slice :=
  if sl.len + value.len ≤ sl.cap then do
    copyS sl.arr (sl.off + sl.len) value.arr value.off value.len 0
    pure { sl with len := sl.len + value.len }
  else .grow (sl.len + value.len) fun a cap => do
    copyS a 0 sl.arr sl.off sl.len 0
    copyS a sl.len value.arr value.off value.len 0
    pure ⟨a, 0, sl.len + value.len, cap⟩

/-- kv.go:32-37. (The error it returns is always nil.) -/
def kvAppendS (id : GoString) (value : Slice) : SM Unit :=
  .lock (.mapGet id fun sl => do
    let new ← appendSliceS sl value
    .mapSet id new (.unlock (pure ())))

/-- kv.go:40-44 -/
def kvGetS (id : GoString) : SM Slice := .rlock (.mapGet id fun sl => .runlock (pure sl))

/-- The arguments of `insert`. -/
structure RecordH where
  username : Slice
  password : Slice
  metadata : Slice
  numVariants : Int
  withUsername : Bool

/-- cmd/server/server.go:64-73 -/
def insertVariantsS (E : Ext) (s : Server) (username metadata : Slice) (bucketIDHex : GoString) :
    (variants : List Slice) → SM Unit
  | [] => pure ()
  | variant :: rest => do
    let newEntry ← SM.lift (s.encryptBucketEntryH E username variant MetadataSimilarPassword metadata)
    kvAppendS bucketIDHex newEntry
    insertVariantsS E s username metadata bucketIDHex rest

/-- cmd/server/server.go:75-86 -/
def insertUsernameS (E : Ext) (s : Server) (username metadata : Slice) (bucketIDHex : GoString)
    (includeUsernameVariant : Bool) : SM Unit :=
  if includeUsernameVariant then do
    let newEntry ← SM.lift (s.encryptBucketEntryH E username Slice.nil MetadataBreachedUsername metadata)
    kvAppendS bucketIDHex newEntry
  else pure ()

/-- cmd/server/server.go:51-87 -/
def insertS (E : Ext) (s : Server) (r : RecordH) : SM Unit := do
  let id ← SM.lift (s.bucketIDH E r.username)
  let newEntry ← SM.lift (s.encryptBucketEntryH E r.username r.password MetadataBreachedPassword r.metadata)
  kvAppendS (BucketIDToHex id) newEntry
  let passwordVariants ← SM.lift (Mutator.mutateH Mutator.dasRules r.password r.numVariants)
  insertVariantsS E s r.username r.metadata (BucketIDToHex id) passwordVariants
  insertUsernameS E s r.username r.metadata (BucketIDToHex id) r.withUsername

/-- cmd/server/main.go:77-93: inserting one record after another, counting successes and failures. (A panic ends the
goroutine. In Go it ends the program, so that there are fewer runs than here.) -/
def loadS (E : Ext) (s : Server) : List RecordH → (successes failures : Nat) → SM (Nat × Nat)
  | [], successes, failures => pure (successes, failures)
  | r :: rs, successes, failures => do
    match ← SM.attempt (insertS E s r) with
    | .ok () => loadS E s rs (successes + 1) failures
    | .error _ => loadS E s rs successes (failures + 1)

/-- server.go:222-250, on the store of cmd/server. -/
def handleRequestS (s : Server) (request : ClientRequestH) : SM ServerResponseH :=
  if UInt16.ofNat request.version.toNat ≠ s.version then .done (.err .versionMismatch)
  else do
    let element ← SM.lift (HM.load request.blindElement)
    let evaluated ← .done (s.suite.evaluate s.privateKey element OprfInfo)
    let evaluated ← SM.lift (HM.new evaluated)
    match hexDecode request.bucketID with
    | none => .done (.err .bucketIDHex)
    | some _ =>
      let bucketContents ← kvGetS request.bucketID
      pure { version := request.version, evaluatedElement := evaluated, bucketContents }

/-- cmd/server/server.go:120-134: the bytes of the reply to a request, which `w.Write` reads from memory. -/
def replyS (s : Server) (request : ClientRequestH) : SM Bytes := do
  let response ← handleRequestS s request
  let body ← SM.lift response.marshalBinaryH
  SM.lift (HM.load body)

/-- cmd/server/server.go:105-137. `body` is what comes over the connection (`none`: an error); `ioutil.ReadAll` puts it
into new memory, and so does `json.Unmarshal` with the element. (Decoding itself works on what it has read:
`ClientRequest.unmarshalJSON`; the strings it makes are values.) -/
def handleEvaluateS (s : Server) (stale : Nat → Nat → UInt8) : (body : Option Bytes) → SM Http.Writer
  | none => pure (Http.Writer.new.error (Http.statusText 400) 400)
  | some received => do
    let body ← SM.lift (HM.new received)
    let text ← SM.lift (HM.load body)
    let request := ClientRequest.unmarshalJSON stale text ClientRequest.zero
    let blindElement ← SM.lift (HM.new request.1.blindElement)
    let w := if request.2 then Http.Writer.new.error (Http.statusText 400) 400 else Http.Writer.new
    match ← SM.attempt (handleRequestS s ⟨request.1.version, request.1.bucketID, blindElement⟩) with
    | .error _ => pure (w.error (Http.statusText 500) 500)
    | .ok migpResponse =>
      let w := w.setContentType (ascii "application/octet-stream")
      match ← SM.attempt (SM.lift migpResponse.marshalBinaryH) with
      | .error _ => pure ((w.error (Http.statusText 500) 500).write [])
      | .ok respBody => do
        let bytes ← SM.lift (HM.load respBody)
        pure (w.write bytes)

/-- cmd/server/server.go:42-48, 90-102: the handler for a path, in the goroutine that `net/http` starts for the
connection (`none` for redirects). -/
def serveS (s : Server) (stale : Nat → Nat → UInt8) (path : GoString) (body : Option Bytes) : SM (Option Http.Writer) :=
  match route path with
  | .index => pure (some handleIndex)
  | .config => pure (some (handleConfig s))
  | .evaluate => do
    let w ← handleEvaluateS s stale body
    pure (some w)
  | .redirect _ => pure none

/-- What a goroutine of the server does. -/
inductive JobH where
  | load (rs : List RecordH)
  | reply (request : ClientRequestH)
  | serve (stale : Nat → Nat → UInt8) (path : GoString) (body : Option Bytes)

/-- What comes of it. -/
inductive JobOut where
  | loaded (successes failures : Nat)
  | replied (body : Bytes)
  | served (w : Option Http.Writer)

/-- The code of a goroutine. -/
def JobH.code (E : Ext) (s : Server) : JobH → SM JobOut
  | .load rs => do
    let n ← loadS E s rs 0 0
    pure (.loaded n.1 n.2)
  | .reply request => do
    let body ← replyS s request
    pure (.replied body)
  | .serve stale path body => do
    let w ← serveS s stale path body
    pure (.served w)

/-- Memory, the store with its lock, and what each goroutine still has to do. -/
structure Srv (ι : Type) where
  heap : Heap
  store : GoString → Slice
  writer : Bool
  readers : Nat
  code : ι → SM JobOut

/-- A single step of one goroutine. (A goroutine at `Lock` or `RLock` waits until the lock is free for it. Go also lets
readers wait when a writer is waiting; here they may go on.) -/
inductive Srv.Step {ι : Type} [DecidableEq ι] : Srv ι → Srv ι → Prop
  | alloc (s : Srv ι) (t : ι) (b : Bytes) (k : Nat → SM JobOut) : s.code t = .alloc b k →
      Step s { s with heap := s.heap ++ [b], code := Function.update s.code t (k s.heap.length) }
  | grow (s : Srv ι) (t : ι) (n : Nat) (k : Nat → Nat → SM JobOut) (x : Bytes) : s.code t = .grow n k → n ≤ x.length →
      Step s { s with heap := s.heap ++ [x], code := Function.update s.code t (k s.heap.length x.length) }
  | read (s : Srv ι) (t : ι) (a i : Nat) (k : UInt8 → SM JobOut) : s.code t = .read a i k →
      Step s { s with code := Function.update s.code t (k (s.heap.byte a i)) }
  | write (s : Srv ι) (t : ι) (a i : Nat) (v : UInt8) (k : SM JobOut) : s.code t = .write a i v k →
      Step s { s with heap := s.heap.setByte a i v, code := Function.update s.code t k }
  | lock (s : Srv ι) (t : ι) (k : SM JobOut) : s.code t = .lock k → s.writer = false → s.readers = 0 →
      Step s { s with writer := true, code := Function.update s.code t k }
  | unlock (s : Srv ι) (t : ι) (k : SM JobOut) : s.code t = .unlock k →
      Step s { s with writer := false, code := Function.update s.code t k }
  | rlock (s : Srv ι) (t : ι) (k : SM JobOut) : s.code t = .rlock k → s.writer = false →
      Step s { s with readers := s.readers + 1, code := Function.update s.code t k }
  | runlock (s : Srv ι) (t : ι) (k : SM JobOut) : s.code t = .runlock k →
      Step s { s with readers := s.readers - 1, code := Function.update s.code t k }
  | mapGet (s : Srv ι) (t : ι) (id : GoString) (k : Slice → SM JobOut) : s.code t = .mapGet id k →
      Step s { s with code := Function.update s.code t (k (s.store id)) }
  | mapSet (s : Srv ι) (t : ι) (id : GoString) (sl : Slice) (k : SM JobOut) : s.code t = .mapSet id sl k →
      Step s { s with store := fun x => if x = id then sl else s.store x, code := Function.update s.code t k }

/-- A new server on some memory, with goroutines that have not begun (kv.go:17-21). -/
def Srv.start {ι : Type} (E : Ext) (s : Server) (h : Heap) (jobs : ι → JobH) : Srv ι :=
  ⟨h, fun _ => Slice.nil, false, 0, fun t => (jobs t).code E s⟩

/-- The next step of the code writes byte `i` of array `a`. -/
def SM.Writes {α : Type} (m : SM α) (a i : Nat) : Prop := ∃ v k, m = .write a i v k

/-- The next step of the code reads or writes byte `i` of array `a`. -/
def SM.Accesses {α : Type} (m : SM α) (a i : Nat) : Prop := (∃ k, m = .read a i k) ∨ m.Writes a i

/-- The next step of the code changes the map. -/
def SM.SetsMap {α : Type} (m : SM α) : Prop := ∃ id sl k, m = .mapSet id sl k

/-- The next step of the code looks at or changes the map. -/
def SM.UsesMap {α : Type} (m : SM α) : Prop := (∃ id k, m = .mapGet id k) ∨ m.SetsMap

end Migp
