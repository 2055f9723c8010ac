import Verif.Model.ServerConc
import Verif.Model.InsertCalls
import Verif.Spec.Memory
import Verif.Spec.Linearizable
/-!
# What the goroutines of the server do, as if one call of the store came after the other
-/
namespace Migp.Spec

/-- The arguments of `insert` in memory stand for these. -/
structure RecordShows (M : Memory) (x : RecordH) (y : Record) : Prop where
  username : Shows M x.username y.username
  password : Shows M x.password y.password
  metadata : Shows M x.metadata y.metadata
  numVariants : x.numVariants = y.numVariants
  withUsername : x.withUsername = y.withUsername

/-- What a goroutine is asked to do: insert these records one after the other, answer this request, or handle an HTTP
request for this path with this body. -/
inductive JobV where
  | load (rs : List Record)
  | reply (request : ClientRequest)
  | serve (stale : Nat → Nat → UInt8) (path : GoString) (body : Option Bytes)

/-- A job whose arguments are in memory stands for this one. -/
inductive JobShows (M : Memory) : JobH → JobV → Prop
  | load (rs : List RecordH) (rs' : List Record) : List.Forall₂ (RecordShows M) rs rs' → JobShows M (.load rs) (.load rs')
  | reply (x : ClientRequestH) (y : ClientRequest) : RequestShows M x y → JobShows M (.reply x) (.reply y)
  | serve (stale : Nat → Nat → UInt8) (path : GoString) (body : Option Bytes) :
      JobShows M (.serve stale path body) (.serve stale path body)

section
variable (E : Ext) (s : Server)

/-- The calls of the store that inserting records makes; a panic is the end. -/
def loadCalls : List Record → List KVOp
  | [] => []
  | r :: rs => insertCalls E s r ++
      match (insertRecord E s r newKVStore).2 with
      | .panic _ => []
      | _ => loadCalls rs

/-- How inserting records ends: with the numbers of those inserted and of those not, or with a panic. -/
def loadOutcome : List Record → (successes failures : Nat) → Res (Nat × Nat)
  | [], n, m => .ok (n, m)
  | r :: rs, n, m =>
    match (insertRecord E s r newKVStore).2 with
    | .ok _ => loadOutcome rs (n + 1) m
    | .err _ => loadOutcome rs n (m + 1)
    | .panic p => .panic p

/-- The store after inserting records into an empty one. -/
def afterLoading (rs : List Record) : KV := rs.foldl (fun kv r => (insertRecord E s r kv).1) newKVStore

/-- The reply to a request when the store is `kv`. -/
def replyOf (kv : Getter) (request : ClientRequest) : Res Bytes := do
  let response ← s.handleRequest request kv
  response.marshalBinary

/-- The outcome of a goroutine that handles an HTTP request: what the handler wrote (nothing for a redirect), or a
panic. -/
def servedOf : Option (Res Http.Writer) → Res JobOut
  | some (.ok w) => .ok (.served (some w))
  | some (.err e) => .err e
  | some (.panic p) => .panic p
  | none => .ok (.served none)

/-- The calls a job makes if it gets to its end. -/
def JobV.calls : JobV → List KVOp
  | .load rs => loadCalls E s rs
  | .reply request => [.get request.bucketID]
  | .serve stale path body =>
    match route path, body with
    | .evaluate, some text => [.get (ClientRequest.unmarshalJSON stale text ClientRequest.zero).1.bucketID]
    | _, _ => []

/-- A job that has made the calls `trace` (with these results) may end like this. -/
def JobV.Ends : JobV → (trace : List (KVOp × Bytes)) → Res JobOut → Prop
  | .load rs, trace, out => trace.map Prod.fst = loadCalls E s rs ∧
      out = (loadOutcome E s rs 0 0 >>= fun n => .ok (.loaded n.1 n.2))
  | .reply request, trace, out =>
      (∃ b, trace = [(.get request.bucketID, b)] ∧
        out = (replyOf s (fun _ => .ok b) request >>= fun body => .ok (.replied body))) ∨
      (trace = [] ∧ ∀ kv, out = (replyOf s kv request >>= fun body => .ok (.replied body)))
  | .serve stale path body, trace, out =>
      (∃ id b, trace = [(.get id, b)] ∧ ∀ kv : KV, kv.store id = b → out = servedOf (Migp.serve s kv stale path body)) ∨
      (trace = [] ∧ ∀ kv, out = servedOf (Migp.serve s kv stale path body))

end

/-- A call of the store by a goroutine, with its result. -/
abbrev LogEntry (ι : Type) := ι × KVOp × Bytes

/-- The calls of one goroutine. -/
def traceOf {ι : Type} [DecidableEq ι] (t : ι) (log : List (LogEntry ι)) : List (KVOp × Bytes) :=
  (log.filter (fun e => e.1 = t)).map Prod.snd

/-- The state of the server is explained by the calls of `log`, one after the other. -/
structure Explains {ι : Type} [DecidableEq ι] (E : Ext) (s : Server) (jobs : ι → JobV) (log : List (LogEntry ι))
    (st : Srv ι) : Prop where
  /-- each call has the result it has in a store that is used by one goroutine -/
  legal : Legal (log.map Prod.snd)
  /-- the store shows what it has to contain after these calls -/
  store : ∀ id b, Holds id (log.map (fun e => e.2.1)) b → Shows st.heap.mem (st.store id) b
  /-- each goroutine has made the first of the calls of its job, in their order -/
  calls : ∀ t, (traceOf t log).map Prod.fst <+: (jobs t).calls E s
  /-- a goroutine that has ended has made all of them, and has the outcome of its job -/
  ends : ∀ t out, st.code t = .done out → (jobs t).Ends E s (traceOf t log) out

/-- A run: from each state one goroutine makes a step, or none does (so that runs that have come to an end are
among them, too). -/
structure IsRun {ι : Type} [DecidableEq ι] (E : Ext) (s : Server) (h : Heap) (jobs : ι → JobH) (run : Nat → Srv ι) :
    Prop where
  start : run 0 = Srv.start E s h jobs
  step : ∀ k, Srv.Step (run k) (run (k + 1)) ∨ run (k + 1) = run k

/-- The logs of a run: each is the one before, or that with another call, made by a goroutine that has moved. -/
def LogsOf {ι : Type} (run : Nat → Srv ι) (logs : Nat → List (LogEntry ι)) : Prop :=
  logs 0 = [] ∧ ∀ k, logs (k + 1) = logs k ∨
    ∃ t op r, logs (k + 1) = logs k ++ [(t, op, r)] ∧ (run (k + 1)).code t ≠ (run k).code t

end Migp.Spec
