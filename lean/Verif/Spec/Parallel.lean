import Verif.Model.Parallel
import Verif.Model.MutatorHeap
import Verif.Spec.Memory
/-!
# What code made of calls of the library does
-/
namespace Migp.Spec

/-- A relation that goes on holding when arrays are allocated. -/
def Lasting {α β : Type} (R : Memory → α → β → Prop) : Prop :=
  ∀ M M' a b, Kept M M' → R M a b → R M' a b

/-- What the model on values says about code that looks at the error of a call. -/
def attempted {β : Type} : Res β → Res (Except Err β)
  | .ok b => .ok (.ok b)
  | .err e => .ok (.error e)
  | .panic p => .panic p

/-- Code made of calls of the library, whose arguments are in memory `M`; what its outcome has to be according to
the model on values; and how the returned values are related. -/
inductive LibraryCode (E : Ext) : Memory → {α β : Type} → HM α → Res β → (Memory → α → β → Prop) → Prop
  | mutate {M : Memory} (rules : List Mutator.RDasRule) (num : Int) {password : Slice} {b : Bytes} :
      Shows M password b →
      LibraryCode E M (Mutator.mutateH rules password num) (Mutator.mutate rules b num) (Variants M)
  | encryptBucketEntry {M : Memory} (s : Server) (flag : MetadataType) {username password metadata : Slice}
      {u p m : Bytes} : Shows M username u → Shows M password p → Shows M metadata m →
      LibraryCode E M (s.encryptBucketEntryH E username password flag metadata)
        (s.encryptBucketEntry E u p flag m) (NewSlice M)
  | deriveBucketEntryKey {M : Memory} (s : Server) {username password : Slice} {u p : Bytes} :
      Shows M username u → Shows M password p →
      LibraryCode E M (s.deriveBucketEntryKeyH E username password) (s.deriveBucketEntryKey E u p) (NewSlice M)
  | serverBucketID {M : Memory} (s : Server) {username : Slice} {u : Bytes} : Shows M username u →
      LibraryCode E M (s.bucketIDH E username) (s.bucketID E u) (fun _ x y => x = y)
  | clientBucketID {M : Memory} (c : Client) {username : Slice} {u : Bytes} : Shows M username u →
      LibraryCode E M (c.bucketIDH E username) (c.bucketID E u) (fun _ x y => x = y)
  | request {M : Memory} (c : Client) (blind : ZMod c.suite.q) {username password : Slice} {u p : Bytes} :
      Shows M username u → Shows M password p →
      LibraryCode E M (c.requestH E username password blind) (c.request E u p blind) (Requested M)
  | finalize {M : Memory} {ctx : ClientRequestContextH} {ctxv : ClientRequestContext} {resp : ServerResponseH}
      {respv : ServerResponse} : ContextShows M ctx ctxv → ResponseShows M resp respv →
      LibraryCode E M (ctx.finalizeH E resp) (ctxv.finalize E respv).toRes (Finalized M)
  | handleRequest {M : Memory} (s : Server) {req : ClientRequestH} {reqv : ClientRequest} (store : GoString → Slice)
      (kv : KV) : RequestShows M req reqv → (∀ id, Shows M (store id) (kv.store id)) →
      LibraryCode E M (s.handleRequestH req (fun id => pure (store id))) (s.handleRequest reqv kv.get)
        (Handled M (store req.bucketID))
  | marshal {M : Memory} {r : ServerResponseH} {rv : ServerResponse} : ResponseShows M r rv →
      LibraryCode E M r.marshalBinaryH rv.marshalBinary (NewSlice M)
  | unmarshal {M : Memory} (r : ServerResponseH) {data : Slice} {b : Bytes} : Shows M data b →
      LibraryCode E M (r.unmarshalBinaryH data) (Res.ok ())
        (fun M' x _ => Received M b data r M' x.1 x.2)
  | encrypt {M : Memory} (enc : BucketEncryptor) (flag : MetadataType) {secret body : Slice} {s b : Bytes} :
      Shows M secret s → Shows M body b →
      LibraryCode E M (enc.encryptH E secret flag body) (enc.encrypt E s flag b) (NewSlice M)
  | decryptHeader {M : Memory} (enc : BucketEncryptor) {secret ciphertext : Slice} {s c : Bytes} :
      Shows M secret s → Shows M ciphertext c →
      LibraryCode E M (enc.decryptHeaderH E secret ciphertext) (enc.decryptHeader E s c) (fun _ x y => x = y)
  | decryptBody {M : Memory} (enc : BucketEncryptor) {secret ciphertext : Slice} {s c : Bytes} :
      Shows M secret s → Shows M ciphertext c →
      LibraryCode E M (enc.decryptBodyH E secret ciphertext) (enc.decryptBody E s c) (NewSlice M)
  | bucketHash {M : Memory} (bh : BucketHasher) {buf : Slice} {b : Bytes} : Shows M buf b →
      LibraryCode E M (bh.hashH E buf) (bh.hash E b) (NewSlice M)
  | slowHash {M : Memory} (sh : SlowHasher) {buf : Slice} {b : Bytes} : Shows M buf b →
      LibraryCode E M (sh.hashH E buf) (sh.hash E b) (SlowHashed sh M buf)
  /-- returning a value -/
  | ret {M : Memory} {α β : Type} {R : Memory → α → β → Prop} {a : α} {b : β} : Lasting R → R M a b →
      LibraryCode E M (pure a) (.ok b) R
  /-- one piece of code after another, which uses what the first returned -/
  | seq {M : Memory} {α β γ δ : Type} {R : Memory → α → β → Prop} {R' : Memory → γ → δ → Prop} {m : HM α}
      {r : Res β} {f : α → HM γ} {g : β → Res δ} : Lasting R' → LibraryCode E M m r R →
      (∀ M' a b, Kept M M' → R M' a b → LibraryCode E M' (f a) (g b) R') →
      LibraryCode E M (m >>= f) (r >>= g) R'
  /-- code that goes on whether or not there was an error -/
  | attempt {M : Memory} {α β : Type} {R : Memory → α → β → Prop} {m : HM α} {r : Res β} : LibraryCode E M m r R →
      LibraryCode E M (HM.attempt m) (attempted r) (fun M' x y =>
        match x, y with
        | .ok a, .ok b => R M' a b
        | .error e, .error e' => e = e'
        | _, _ => False)
  /-- saying less about what is returned -/
  | weaken {M : Memory} {α β : Type} {R Q : Memory → α → β → Prop} {m : HM α} {r : Res β} : Lasting Q →
      LibraryCode E M m r R → (∀ M' a b, Kept M M' → R M' a b → Q M' a b) → LibraryCode E M m r Q

end Migp.Spec
