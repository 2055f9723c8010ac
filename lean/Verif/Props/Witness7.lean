import Verif.Props.Witness6
import Verif.Props.Traffic
import Verif.Props.ServerConc
import Verif.Props.Sharper
import Verif.Props.HttpConc
import Verif.Props.CommandLine
import Verif.Props.ServerLock
import Verif.Props.Missing
import Verif.Props.Web
import Verif.Props.HostileConfig
import Verif.Props.Mismatch
import Verif.Props.FileOrder
import Verif.Props.BucketView
import Verif.Props.Wire
import Verif.Props.Restart
import Verif.Props.Stream
/-!
# Concrete cases for the hypotheses of the theorems, part 7: programs and servers (C70-C87)
-/
namespace Migp.Props
open Spec Example Mutator Json

/-! ## C70: what the client program sends -/

/-- C70_messages, C70_same_program: the two credentials of the example and the example network: a query that was sent is the
request of the credential. -/
example (kv : KV) (stale0 stale : Nat → Nat → UInt8) (chunk : Nat → Nat) (rand : Nat → (S : Suite) → ZMod S.q) :
    ∃ b₀ b₁ : Bytes, (∃ req ctx, client.request ext (ascii "user") (ascii "password") (rand 0 client.suite) = .ok (req, ctx) ∧
        b₀ = req.marshalJSON) ∧
      (∃ n, ((clientTalk ext ⟨none, false, false, some (ascii "user:password\nuser:x")⟩ rand stale chunk).run
        (exampleNet kv stale0) []).1 = [.config] ++ ([b₀, b₁].take n).map Sent.evaluate) ∧
      ((clientTalk ext ⟨none, false, false, some (ascii "user:password\nuser:x")⟩ rand stale chunk).run
        (exampleNet kv stale0) []).2 = clientMain ext ⟨none, false, false, some (ascii "user:password\nuser:x")⟩
          (exampleNet kv stale0 [.config]) (fun _ => deliver server kv stale0 (ascii "/evaluate")) rand stale chunk := by
  obtain ⟨bodies, hl, hb, h⟩ := C70_messages (args := ⟨none, false, false, some (ascii "user:password\nuser:x")⟩) (rand := rand)
    newClient_eq (by decide) (by decide) rfl rfl traffic_reads.1
  have hl : bodies.length = 2 := hl
  match bodies, hl with
  | [b₀, b₁], _ =>
    obtain ⟨req, ctx, h1, h2⟩ := hb 0 (ascii "user") (ascii "password") rfl
    obtain ⟨n, hn, -⟩ := h (exampleNet kv stale0) stale chunk (exampleNet_config _ _ _)
    exact ⟨b₀, b₁, ⟨req, ctx, h1, Option.some.inj h2⟩, ⟨n, hn⟩,
      C70_same_program _ _ _ rand stale chunk _ rfl (fun l b => exampleNet_evaluate kv stale0 l b)⟩

/-- C70_no_query: the program is asked for the configuration only; the file cannot be opened; the configuration does not come. -/
example (kv : KV) (stale0 stale : Nat → Nat → UInt8) (chunk : Nat → Nat) (rand : Nat → (S : Suite) → ZMod S.q) :
    ((clientTalk ext ⟨none, true, false, some (ascii "user:password\nuser:x")⟩ rand stale chunk).run
      (exampleNet kv stale0) []).1 = [.config] ∧
    ((clientTalk ext ⟨none, false, false, none⟩ rand stale chunk).run (exampleNet kv stale0) []).1 = [.config] ∧
    ((clientTalk ext ⟨some none, false, false, some (ascii "user:password\nuser:x")⟩ rand stale chunk).run
      (exampleNet kv stale0) []).1 = [] :=
  ⟨C70_no_query _ rand stale chunk _ (.inl rfl), C70_no_query _ rand stale chunk _ (.inr (.inr rfl)),
   C70_no_query _ rand stale chunk _ (.inr (.inl rfl))⟩

/-! ## C71, C72, C74: goroutines -/

/-- C71_accesses_exist, C71_memory_kept, C71_no_data_race, C71_progress: a run of the goroutines of `C71_example`. -/
example (z : ZMod client.suite.q) : ∃ (h : Heap) (jobs : Fin 3 → JobH) (run : Nat → Srv (Fin 3)) (last : Nat),
    IsRun ext server h jobs run ∧ (∀ t, ∃ x, (run last).code t = .done x) ∧
    ∀ k, Kept h.mem (run k).heap.mem ∧
      (∀ t arr i, ((run k).code t).Accesses arr i → (run k).heap.mem.byte arr i ≠ none) ∧
      (∀ t u : Fin 3, t ≠ u → ∀ arr i, ¬ (((run k).code t).Writes arr i ∧ ((run k).code u).Accesses arr i)) ∧
      (∀ t, (∀ x, (run k).code t ≠ .done x) → ∃ st', Srv.Step (run k) st') := by
  obtain ⟨h, jobs, jobsV, hj, ⟨run, last, r, hd⟩, -⟩ := C71_example z
  exact ⟨h, jobs, run, last, r, hd, fun k => ⟨C71_memory_kept ext server h jobs jobsV hj run r k,
    C71_accesses_exist ext server h jobs jobsV hj run r k,
    fun t u htu => (C71_no_data_race ext server h jobs jobsV hj run r k t u htu).1,
    fun t => C71_progress ext server h jobs jobsV hj run r k t⟩⟩

/-- C71_reply, C71_outcome: the goroutine that answers a request, next to one that loads a record. -/
example (z : ZMod client.suite.q) : ∃ (h : Heap) (jobs : Fin 2 → JobH) (jobsV : Fin 2 → JobV) (req : ClientRequest)
    (run : Nat → Srv (Fin 2)) (logs : Nat → List (LogEntry (Fin 2))) (j k : Nat) (body : Bytes),
    IsRun ext server h jobs run ∧ LogsOf run logs ∧ (run k).code 1 = .done (.ok (.replied body)) ∧
    (∃ log, logs j <+: log ∧ log <+: logs k ∧ ∀ kv : Getter,
      (∀ id b, Spec.Holds id (log.map fun e => e.2.1) b → kv id = .ok b) → replyOf server kv req = .ok body) ∧
    ∃ log, logs j <+: log ∧ log <+: logs k ∧ ∀ kv : Getter,
      (∀ id b, Spec.Holds id (log.map fun e => e.2.1) b → kv id = .ok b) →
        match replyOf server kv req with
        | .ok body' => Res.ok (JobOut.replied body) = .ok (.replied body')
        | .err e => Res.ok (JobOut.replied body) = .err e
        | .panic p => Res.ok (JobOut.replied body) = .panic p := by
  obtain ⟨h, reqH, req, hrec, hreq, hrep⟩ := ex_server z
  let jobs : Fin 2 → JobH := fun t => match t with
    | 0 => .load [exRecordH]
    | 1 => .reply reqH
  let jobsV : Fin 2 → JobV := fun t => match t with
    | 0 => .load [exRecord]
    | 1 => .reply req
  have hj : ∀ t, JobShows h.mem (jobs t) (jobsV t) := fun t => match t with
    | 0 => .load _ _ (.cons hrec .nil)
    | 1 => .reply _ _ hreq
  obtain ⟨run, j, k, r, hjk, ⟨x0, h0⟩, hstill, hd⟩ := server_first ext server h jobs jobsV hj 0
  obtain ⟨x1, h1⟩ := hd 1
  obtain ⟨logs, hl, hx⟩ := C71_log ext server h jobs jobsV hj run r
  obtain ⟨body, e1⟩ := ex_replied hrep ((hx k).ends 1 _ h1)
  rw [e1] at h1
  exact ⟨h, jobs, jobsV, req, run, logs, j, k, body, r, hl, h1,
    C71_reply ext server h jobs jobsV run r logs hl hx 1 req rfl k body h1 j hjk (hstill 1 (by decide)),
    C71_outcome ext server h jobs jobsV run r logs hl hx 1 req rfl k _ h1 j hjk (hstill 1 (by decide))⟩

/-- C72_outcome: a request for `/evaluate` with a body that is no JSON, next to a goroutine that loads a record. -/
example (stale : Nat → Nat → UInt8) : ∃ (h : Heap) (jobs : Fin 2 → JobH) (run : Nat → Srv (Fin 2))
    (logs : Nat → List (LogEntry (Fin 2))) (j k : Nat) (out : Res JobOut),
    IsRun ext server h jobs run ∧ LogsOf run logs ∧ (run k).code 1 = .done out ∧
    ∃ log, logs j <+: log ∧ log <+: logs k ∧ ∀ kv : KV,
      (∀ id b, Spec.Holds id (log.map fun e => e.2.1) b → kv.store id = b) →
        out = servedOf (serve server kv stale (ascii "/evaluate") (some (ascii "{"))) := by
  obtain ⟨h, -, -, hrec, -, -⟩ := ex_server 1
  let jobs : Fin 2 → JobH := fun t => match t with
    | 0 => .load [exRecordH]
    | 1 => .serve stale (ascii "/evaluate") (some (ascii "{"))
  let jobsV : Fin 2 → JobV := fun t => match t with
    | 0 => .load [exRecord]
    | 1 => .serve stale (ascii "/evaluate") (some (ascii "{"))
  have hj : ∀ t, JobShows h.mem (jobs t) (jobsV t) := fun t => match t with
    | 0 => .load _ _ (.cons hrec .nil)
    | 1 => .serve _ _ _
  obtain ⟨run, j, k, r, hjk, ⟨x0, h0⟩, hstill, hd⟩ := server_first ext server h jobs jobsV hj 0
  obtain ⟨x1, h1⟩ := hd 1
  obtain ⟨logs, hl, hx⟩ := C71_log ext server h jobs jobsV hj run r
  exact ⟨h, jobs, run, logs, j, k, x1, r, hl, h1,
    C72_outcome ext server h jobs jobsV run r logs hl hx 1 stale _ _ rfl k x1 h1 j hjk (hstill 1 (by decide))⟩

/-- C74_no_data_race, C74_no_fatal, C74_progress: a run of the goroutines of `C74_example`. -/
example (z : ZMod client.suite.q) : ∃ (h : Heap) (jobs : Fin 3 → JobH) (run : Nat → SrvL (Fin 3)) (last : Nat),
    IsRunL ext server h jobs run ∧ (∀ t, ∃ x, (run last).Ended t x) ∧
    ∀ k, (run k).fatal = false ∧
      (∀ t u : Fin 3, t ≠ u → ∀ arr i, ¬ (((run k).code t).Writes arr i ∧ ((run k).code u).Accesses arr i)) ∧
      (∀ t, (∀ x, ¬ (run k).Ended t x) → ∃ c', SrvL.Step (run k) c') := by
  obtain ⟨h, jobs, jobsV, hj, ⟨run, last, r, hd⟩, -⟩ := C74_example z
  have hf : Few (Fin 3) := few_fin (by decide)
  exact ⟨h, jobs, run, last, r, hd, fun k => ⟨(C74_no_fatal hf ext server h jobs jobsV hj run r k).1,
    fun t u htu => (C74_no_data_race hf ext server h jobs jobsV hj run r k t u htu).1,
    fun t => C74_progress hf ext server h jobs jobsV hj run r k t⟩⟩

/-- A state of one goroutine among others that have not moved. -/
def amongL {ι : Type} [DecidableEq ι] (code : ι → SM JobOut) (t : ι) (c : SrvL (Fin 1)) : SrvL ι :=
  ⟨c.heap, c.store, c.lock, Function.update code t (c.code 0), Function.update (fun _ => .idle) t (c.pc 0), c.fatal⟩

theorem amongL_step {ι : Type} [DecidableEq ι] (code : ι → SM JobOut) (t : ι) {c c' : SrvL (Fin 1)} (h : SrvL.Step c c') :
    SrvL.Step (amongL code t c) (amongL code t c') := by
  obtain ⟨hf, h⟩ := h
  refine ⟨hf, ?_⟩
  have hc : ∀ {u : Fin 1} {m : SM JobOut}, c.code u = m → (amongL code t c).code t = m := fun {u m} e => by
    have : u = 0 := Subsingleton.elim _ _
    subst this
    show Function.update code t (c.code 0) t = m
    rw [Function.update_self]; exact e
  have hp : ∀ {u : Fin 1} {p : LockPc}, c.pc u = p → (amongL code t c).pc t = p := fun {u m} e => by
    have : u = 0 := Subsingleton.elim _ _
    subst this
    show Function.update (fun _ => LockPc.idle) t (c.pc 0) t = m
    rw [Function.update_self]; exact e
  have up : ∀ (u : Fin 1) (m : SM JobOut), Function.update code t (Function.update c.code u m 0) =
      Function.update (amongL code t c).code t m := fun u m => by
    have : u = 0 := Subsingleton.elim _ _
    subst this
    show _ = Function.update (Function.update code t (c.code 0)) t m
    rw [Function.update_self, Function.update_idem]
  have uq : ∀ (u : Fin 1) (p : LockPc), Function.update (fun _ : ι => LockPc.idle) t (Function.update c.pc u p 0) =
      Function.update (amongL code t c).pc t p := fun u m => by
    have : u = 0 := Subsingleton.elim _ _
    subst this
    show _ = Function.update (Function.update (fun _ => LockPc.idle) t (c.pc 0)) t m
    rw [Function.update_self, Function.update_idem]
  unfold amongL at up uq ⊢
  cases h with
  | alloc u b k e1 e2 => rw [up]; exact .alloc _ t b k (hp e1) (hc e2)
  | grow u n k x e1 e2 hn => rw [up]; exact .grow _ t n k x (hp e1) (hc e2) hn
  | read u a i k e1 e2 => rw [up]; exact .read _ t a i k (hp e1) (hc e2)
  | write u a i v k e1 e2 => rw [up]; exact .write _ t a i v k (hp e1) (hc e2)
  | mapGet u id k e1 e2 => rw [up]; exact .mapGet _ t id k (hp e1) (hc e2)
  | mapSet u id sl k e1 e2 => rw [up]; exact .mapSet _ t id sl k (hp e1) (hc e2)
  | lockW u k e1 e2 h => rw [uq]; exact .lockW _ t k (hp e1) (hc e2) h
  | announce u e1 => rw [uq]; exact .announce _ t (hp e1)
  | alone u k e1 e2 => rw [uq, up]; exact .alone _ t k (hp e1) (hc e2)
  | awaitNone u r k e1 e2 h1 h2 => rw [uq, up]; exact .awaitNone _ t r k (hp e1) (hc e2) h1 h2
  | await u r e1 h1 h2 => rw [uq]; exact .await _ t r (hp e1) h1 h2
  | acquireW u k e1 e2 h => rw [uq, up]; exact .acquireW _ t k (hp e1) (hc e2) h
  | unlock u k e1 e2 h => rw [uq, up]; exact .unlock _ t k (hp e1) (hc e2) h
  | unlockFatal u k e1 e2 h => exact .unlockFatal _ t k (hp e1) (hc e2) h
  | release u n e1 => rw [uq]; exact .release _ t n (hp e1)
  | unlockW u e1 => rw [uq]; exact .unlockW _ t (hp e1)
  | rlock u k e1 e2 h => rw [up]; exact .rlock _ t k (hp e1) (hc e2) h
  | rlockWait u k e1 e2 h => rw [uq]; exact .rlockWait _ t k (hp e1) (hc e2) h
  | acquireR u k e1 e2 h => rw [uq, up]; exact .acquireR _ t k (hp e1) (hc e2) h
  | runlock u k e1 e2 h => rw [up]; exact .runlock _ t k (hp e1) (hc e2) h
  | runlockSlow u k e1 e2 h h1 h2 => rw [uq, up]; exact .runlockSlow _ t k (hp e1) (hc e2) h h1 h2
  | runlockFatal u k e1 e2 h h1 => exact .runlockFatal _ t k (hp e1) (hc e2) h h1
  | leave u e1 h => rw [uq]; exact .leave _ t (hp e1) h
  | leaveLast u e1 h => rw [uq]; exact .leaveLast _ t (hp e1) h
  | wake u e1 => rw [uq]; exact .wake _ t (hp e1)

/-- With Go's lock, too, a goroutine may come to its end before any other has begun, and then the others to theirs. -/
theorem lock_first {n : Nat} (hn : n < 2 ^ 30) (E : Ext) (s : Server) (h : Heap) (jobs : Fin n → JobH) (jobsV : Fin n → JobV)
    (hj : ∀ t, JobShows h.mem (jobs t) (jobsV t)) (t : Fin n) : ∃ run j k, IsRunL E s h jobs run ∧ j ≤ k ∧
      (∃ x, (run j).Ended t x) ∧ (∀ u, u ≠ t → ∀ i ≤ j, (run i).code u = (run 0).code u) ∧
      ∀ u, ∃ x, (run k).Ended u x := by
  obtain ⟨run1, j, r1, hd1⟩ := C74_completion (n := 1) (by decide) E s h (fun _ => jobs t) (fun _ => jobsV t) fun _ => hj t
  let A : Nat → SrvL (Fin n) := fun i => amongL (fun u => (jobs u).code E s) t (run1 i)
  have hA : IsRunL E s h jobs A := by
    refine ⟨?_, fun i => (r1.step i).imp (amongL_step _ t) fun e => congrArg (amongL _ t) e⟩
    show amongL _ t (run1 0) = _
    rw [r1.start]
    show (⟨h, _, _, Function.update (fun u => (jobs u).code E s) t ((jobs t).code E s), Function.update (fun _ => .idle) t .idle,
      false⟩ : SrvL (Fin n)) = _
    rw [Function.update_eq_self, Function.update_eq_self]
    rfl
  obtain ⟨b, i⟩ := lock_inv (few_fin hn) hA hj j
  obtain ⟨B, k, hB0, hBs, hBd⟩ := lock_completion (few_fin hn) _ _ i
  refine ⟨fun m => if m ≤ j then A m else B (m - j), j, j + k, ⟨by simpa using hA.start, fun m => ?_⟩, by omega, ?_, ?_, ?_⟩
  · by_cases h1 : m + 1 ≤ j
    · rw [if_pos h1, if_pos (by omega)]; exact hA.step m
    · rw [if_neg h1]
      have hm : (if m ≤ j then A m else B (m - j)) = B (m - j) := by
        by_cases h2 : m ≤ j
        · have : m = j := by omega
          subst this
          rw [if_pos h2, Nat.sub_self, hB0]
        · rw [if_neg h2]
      rw [hm, show m + 1 - j = (m - j) + 1 by omega]
      exact hBs _
  · obtain ⟨x, hx⟩ := hd1 0
    refine ⟨x, ?_⟩
    dsimp only
    rw [if_pos (le_refl j)]
    constructor
    · show Function.update (fun u => (jobs u).code E s) t ((run1 j).code 0) t = _
      rw [Function.update_self]; exact hx.1
    · show Function.update (fun _ => LockPc.idle) t ((run1 j).pc 0) t = _
      rw [Function.update_self]; exact hx.2
  · intro u hu m hm
    dsimp only
    rw [if_pos hm, if_pos (Nat.zero_le j)]
    show Function.update (fun u => (jobs u).code E s) t ((run1 m).code 0) u =
      Function.update (fun u => (jobs u).code E s) t ((run1 0).code 0) u
    rw [Function.update_of_ne hu, Function.update_of_ne hu]
  · dsimp only
    by_cases hk : k = 0
    · subst hk
      rw [Nat.add_zero, if_pos (le_refl j)]
      rw [hB0] at hBd
      exact hBd
    · rw [if_neg (by omega), Nat.add_sub_cancel_left]
      exact hBd

/-- C74_serving: the records are loaded first, and then a request is answered. -/
example (z : ZMod client.suite.q) : ∃ (h : Heap) (jobs : Fin 2 → JobH) (req : ClientRequest) (run : Nat → SrvL (Fin 2))
    (j k : Nat) (body : Bytes), IsRunL ext server h jobs run ∧ j ≤ k ∧ (run j).Ended 0 (.ok (.loaded 1 0)) ∧
      (run k).Ended 1 (.ok (.replied body)) ∧ replyOf server (afterLoading ext server [exRecord]).get req = .ok body := by
  obtain ⟨h, reqH, req, hrec, hreq, hrep⟩ := ex_server z
  let jobs : Fin 2 → JobH := fun t => match t with
    | 0 => .load [exRecordH]
    | 1 => .reply reqH
  let jobsV : Fin 2 → JobV := fun t => match t with
    | 0 => .load [exRecord]
    | 1 => .reply req
  have hj : ∀ t, JobShows h.mem (jobs t) (jobsV t) := fun t => match t with
    | 0 => .load _ _ (.cons hrec .nil)
    | 1 => .reply _ _ hreq
  have ho : ∀ u, u ≠ 0 → ∀ rs, jobsV u ≠ .load rs := fun u => match u with
    | 0 => fun h => (h rfl).elim
    | 1 => fun _ _ h => nomatch h
  have hf : Few (Fin 2) := few_fin (by decide)
  obtain ⟨run, j, k, r, hjk, ⟨x0, h0⟩, hstill, hd⟩ := lock_first (by decide) ext server h jobs jobsV hj 0
  obtain ⟨x1, h1⟩ := hd 1
  obtain ⟨base, hr, hs⟩ := C74_same_runs hf ext server h jobs jobsV hj run r
  obtain ⟨logs, hl, hx⟩ := C71_log ext server h jobs jobsV hj base hr
  have e0 : (JobV.load [exRecord]).Ends ext server _ x0 := (hx j).ends 0 _ (by rw [← (hs j).code]; exact h0.1)
  obtain ⟨body, e1⟩ := ex_replied hrep ((hx k).ends 1 _ (by rw [← (hs k).code]; exact h1.1))
  have hx0 : x0 = .ok (.loaded 1 0) := by rw [e0.2, ex_loadOutcome]; rfl
  rw [hx0] at h0
  rw [e1] at h1
  exact ⟨h, jobs, req, run, j, k, body, r, hjk, h0, h1,
    C74_serving hf ext server h jobs jobsV hj run r 0 [exRecord] rfl ho j 1 0 h0 1 req rfl (hstill 1 (by decide)) k hjk body h1⟩

/-! ## C73: command lines -/

/-- C73_server, C73_ignored: the command line of `C73_example`. -/
example (files : Files) (key : PrivateKey) (stale : Nat → Nat → UInt8) (chunk : Nat → Nat) :
    (∃ f, ServerFlagsAre [(ascii "listen", ascii "-metadata"), (ascii "metadata", ascii "A"), (ascii "num-variants", ascii "0x10"),
      (ascii "num-variants", ascii "2"), (ascii "username-variant", ascii "F")] f) ∧
    serverProgram ext [ascii "-listen", ascii "-metadata", ascii "-metadata=A", ascii "--num-variants=0x10", ascii "-num-variants",
      ascii "2", ascii "--username-variant=F", ascii "-", ascii "-listen", ascii ":80"] files key stale chunk =
    serverProgram ext [ascii "-listen", ascii "-metadata", ascii "-metadata=A", ascii "--num-variants=0x10", ascii "-num-variants",
      ascii "2", ascii "--username-variant=F"] files key stale chunk := by
  have hstop : Stops [ascii "-", ascii "-listen", ascii ":80"] := .inr ⟨_, _, rfl, by decide⟩
  obtain ⟨f, hf, -⟩ := C73_server (E := ext) rfl C73_example_settings hstop
  exact ⟨⟨f, hf⟩, (C73_ignored hstop files stale chunk).1 C73_example_settings key⟩


theorem last_none {ss : List (GoString × GoString)} {name : String} {P : GoString → Prop} {Q : Prop} (h : Last ss name P Q)
    (hn : ∀ x ∈ ss, x.1 ≠ ascii name) : Q := by
  rcases h with ⟨a, v, b, rfl, -, -⟩ | ⟨-, h⟩
  · exact absurd rfl (hn (ascii name, v) (by simp))
  · exact h

theorem last_one {v : GoString} {name : String} {P : GoString → Prop} {Q : Prop} (h : Last [(ascii name, v)] name P Q) : P v := by
  rcases h with ⟨a, v', b, e, -, h⟩ | ⟨h, -⟩
  · have : (ascii name, v') ∈ [(ascii name, v)] := by rw [e]; simp
    rw [List.mem_singleton] at this
    rw [(Prod.mk.inj this).2] at h
    exact h
  · exact absurd rfl (h _ (List.mem_singleton.mpr rfl))

theorem settings_metadata : Settings serverFlags [ascii "-metadata=A"] [(ascii "metadata", ascii "A")] :=
  .cons (words := [_]) (.joined (d := ascii "-") (kind := .string) (by decide) (.inl rfl))
    ⟨fun h => absurd h (by decide), fun h => absurd h (by decide)⟩ .nil

theorem settings_target : Settings clientFlags [ascii "--target", ascii "http://x"] [(ascii "target", ascii "http://x")] :=
  .cons (words := [_, _]) (.apart (d := ascii "--") (kind := .string) (by decide) (by decide) (.inr rfl))
    ⟨fun h => absurd h (by decide), fun h => absurd h (by decide)⟩ .nil

/-- C73_client, C73_end_to_end: a server with metadata and a stray word, a client with a target. -/
example (stale stale1 stale2 : Nat → Nat → UInt8) (chunk chunk' : Nat → Nat) (files files' : Files)
    (hf : files.stdin = ascii "user:password1\r\nbroken\n") (hf' : files'.stdin = ascii "\nuser:password")
    (rand : Nat → (S : Suite) → ZMod S.q) (hr : ∀ i, rand i server.suite ≠ 0) :
    (∃ g, ClientFlagsAre [(ascii "target", ascii "http://x")] g ∧ g.target = ascii "http://x") ∧
    ∃ (variants : Bytes → List Bytes) (kv : KV),
      serverProgram ext [ascii "-metadata=A", ascii "x", ascii "-metadata=B"] files ⟨7⟩ stale chunk =
        .ran (.serving server kv 1 1) (ascii "localhost:8080") ∧
      let db := storedAll (ascii "A") 9 true variants [(ascii "user", ascii "password1")]
      ((∀ y ∈ db, ¬ TagCollision ext server y (ascii "user") (ascii "password")) →
        ∀ get post, get (ascii "http://x" ++ ascii "/config") = deliver server kv stale1 (ascii "/config") [] →
          (∀ k, post k (ascii "http://x" ++ ascii "/evaluate") = deliver server kv stale1 (ascii "/evaluate")) →
          clientProgram ext [ascii "--target", ascii "http://x"] files' get post rand stale2 chunk' =
            .ran ⟨idealLine false db (ascii "user") (ascii "password"), false, .ok⟩) := by
  have hstop : Stops [ascii "x", ascii "-metadata=B"] := .inr ⟨_, _, rfl, by decide⟩
  constructor
  · obtain ⟨g, hg, -⟩ := C73_client (E := ext) (argv := [ascii "--target", ascii "http://x"]) (tail := []) rfl settings_target (.inl rfl)
    exact ⟨g, hg, last_one hg.target⟩
  obtain ⟨f, g, hF, hG, h⟩ := C73_end_to_end (E := ext) (argv := [ascii "-metadata=A", ascii "x", ascii "-metadata=B"]) rfl
    settings_metadata hstop (argv' := [ascii "--target", ascii "http://x"]) (tail' := []) rfl settings_target (.inl rfl)
  have f1 : f.config = [] := last_none hF.config (by decide)
  have f2 : f.listen = ascii "localhost:8080" := last_none hF.listen (by decide)
  have f3 : f.dumpConfig = false := last_none hF.dumpConfig (by decide)
  have f4 : f.infile = ascii "-" := last_none hF.infile (by decide)
  have f5 : f.metadata = ascii "A" := last_one hF.metadata
  have f6 : f.numVariants = 9 := last_none hF.numVariants (by decide)
  have f7 : f.usernameVariant = true := last_none hF.usernameVariant (by decide)
  have g1 : g.config = [] := last_none hG.config (by decide)
  have g2 : g.dumpConfig = false := last_none hG.dumpConfig (by decide)
  have g3 : g.showPassword = false := last_none hG.showPassword (by decide)
  have g4 : g.infile = ascii "-" := last_none hG.infile (by decide)
  have g5 : g.target = ascii "http://x" := last_one hG.target
  rw [f1, f2, f3, f4, f5, f6, f7, g1, g2, g3, g4, g5] at h
  obtain ⟨variants, kv, -, h1, h2⟩ := h (cfg := Example.cfg) (s := server) (key := ⟨7⟩) (stale := stale) (chunk := chunk)
    (files := files) (file := ascii "user:password1\r\nbroken\n") rfl newServer_eq rfl (by rw [if_pos rfl, hf]) (by decide) (by decide)
    example_tweak (by decide) (by decide) (by decide) example_reads.1
    (by
      intro x hx
      have : x = (ascii "user", ascii "password1") := by simpa [credentials] using hx
      rw [this]; decide) rfl
    (stale1 := stale1) (stale2 := stale2) (chunk' := chunk') (files' := files') (file' := ascii "\nuser:password") rfl rfl
    (by rw [if_pos rfl, hf']) example_reads.2 hr (fun x _ => toy_hash_ne _)
  refine ⟨variants, kv, h1, fun hno get post hg hp => ?_⟩
  have := h2 (fun x hx => by
    have : x = (ascii "user", ascii "password") := by simpa [credentials] using hx
    rw [this]; exact hno) get post hg hp
  rw [this]
  rw [show credentials [none, some (ascii "user", ascii "password")] = [(ascii "user", ascii "password")] from rfl,
    List.flatMap_singleton]
  rfl

/-- C73_client_usage: a command line that asks for help, and one with a flag that is not there. -/
example (files : Files) (get : GoString → Transport) (post : Nat → GoString → Bytes → Transport)
    (rand : Nat → (S : Suite) → ZMod S.q) (stale : Nat → Nat → UInt8) (chunk : Nat → Nat) :
    clientProgram ext [ascii "--target", ascii "http://x", ascii "-h"] files get post rand stale chunk = .usage 0 ∧
    ¬ (∃ ws ss tail, [ascii "-listen", ascii ":80"] = ws ++ tail ∧ Settings clientFlags ws ss ∧ Stops tail) := by
  have no : ∀ {argv : List GoString}, (∃ code, clientProgram ext argv files get post rand stale chunk = .usage code) →
      ¬ ∃ ws ss tail, argv = ws ++ tail ∧ Settings clientFlags ws ss ∧ Stops tail := by
    rintro argv ⟨code, h⟩ ⟨ws, ss, tail, h1, h2, h3⟩
    obtain ⟨f, -, hf⟩ := C73_client (E := ext) h1 h2 h3
    rw [hf files get post rand stale chunk] at h
    cases h
  have e1 : clientProgram ext [ascii "--target", ascii "http://x", ascii "-h"] files get post rand stale chunk = .usage 0 := by
    have hp : flagParse ClientFlags.formal ClientFlags.defaults [ascii "--target", ascii "http://x", ascii "-h"] = .help := by
      decide +kernel
    unfold clientProgram
    rw [hp]
  have e2 : clientProgram ext [ascii "-listen", ascii ":80"] files get post rand stale chunk = .usage 2 := by
    have hp : flagParse ClientFlags.formal ClientFlags.defaults [ascii "-listen", ascii ":80"] = .bad := by
      decide +kernel
    unfold clientProgram
    rw [hp]
  exact ⟨(C73_client_usage (no ⟨_, e1⟩) files get post rand stale chunk).1
    ⟨_, _, ascii "-h", [], rfl, settings_target, ascii "-", ascii "h", .inl rfl, .inr rfl, .inl rfl⟩, no ⟨_, e2⟩⟩

/-! ## C77-C79, C82 -/

/-- C77_server_config: the configuration of the example server. -/
example (stale : Nat → Nat → UInt8) : ∃ ms, IsDocument (Example.cfg.marshalJSON ext) (.obj ms) ∧
    LastWins (ascii "bucketIDBitSize") IsInt ms 0 20 := by
  obtain ⟨ms, key, h1, -, -⟩ := C69_server_config ext Example.cfg ⟨by decide, by decide⟩
  exact ⟨_, h1, (C77_server_config (E := ext) stale _ _ h1 Example.cfg
    (C53_server_config ext Example.cfg ⟨by decide, by decide⟩ stale)).2.1⟩

/-- C78_quick_start: both programs without arguments. -/
example (stale stale1 stale2 : Nat → Nat → UInt8) (chunk chunk' : Nat → Nat) (files files' : Files)
    (hf : files.stdin = ascii "user:password1\r\nbroken\n") (hf' : files'.stdin = ascii "\nuser:password")
    (rand : Nat → (S : Suite) → ZMod S.q) (hr : ∀ i, rand i server.suite ≠ 0) :
    ∃ (variants : Bytes → List Bytes) (kv : KV) (listen : GoString),
      serverProgram ext [] files ⟨7⟩ stale chunk = .ran (.serving server kv 1 1) listen ∧
      let db := storedAll [] 9 true variants [(ascii "user", ascii "password1")]
      ((∀ y ∈ db, ¬ TagCollision ext server y (ascii "user") (ascii "password")) →
        clientProgram ext [] files' (fun url => web listen server kv stale1 url []) (fun _ => web listen server kv stale1) rand stale2
          chunk' = .ran ⟨idealLine false db (ascii "user") (ascii "password"), false, .ok⟩) := by
  obtain ⟨variants, kv, listen, -, h1, h2⟩ := C78_quick_start (E := ext) (s := server) (key := ⟨7⟩) (stale := stale)
    (stale1 := stale1) (stale2 := stale2) (chunk := chunk) (chunk' := chunk') (files := files) (files' := files')
    newServer_eq example_tweak (by rw [hf]; exact example_reads.1) (by rw [hf']; exact example_reads.2)
    (by
      intro x hx
      have : x = (ascii "user", ascii "password1") := by simpa [credentials] using hx
      rw [this]; decide) hr (fun x _ => toy_hash_ne _)
  refine ⟨variants, kv, listen, h1, fun hno => ?_⟩
  rw [h2 (fun x hx => by
    have : x = (ascii "user", ascii "password") := by simpa [credentials] using hx
    rw [this]; exact hno),
    show credentials [none, some (ascii "user", ascii "password")] = [(ascii "user", ascii "password")] from rfl,
    List.flatMap_singleton]
  rfl

/-- C79_shown_bits: two usernames that agree in 20 bits, and in 32 bits, of the hash; and another. -/
example (r r' : ZMod client.suite.q) : ∃ req req' req'' ctx ctx' ctx'',
    client.request ext (ascii "user34322") (ascii "a") r = .ok (req, ctx) ∧
    client.request ext (ascii "user52326") (ascii "b") r' = .ok (req', ctx') ∧
    client.request ext (ascii "user") (ascii "b") r' = .ok (req'', ctx'') ∧
    req.bucketID = req'.bucketID ∧ req.bucketID ≠ req''.bucketID := by
  obtain ⟨req, ctx, -, h1, -⟩ := example_request newKVStore (ascii "user34322") (ascii "a") (by decide) (by decide) r
  obtain ⟨req', ctx', -, h2, -⟩ := example_request newKVStore (ascii "user52326") (ascii "b") (by decide) (by decide) r'
  obtain ⟨req'', ctx'', -, h3, -⟩ := example_request newKVStore (ascii "user") (ascii "b") (by decide) (by decide) r'
  refine ⟨req, req', req'', ctx, ctx', ctx'', h1, h2, h3, ?_, fun h => ?_⟩
  · exact (C79_shown_bits Example.cfg.toConfig newClient_eq (by decide) (by decide) _ _ _ _ (by decide) (by decide) _ _ _ _ _ _ h1
      h2).mpr (by decide +kernel)
  · have := (C79_shown_bits Example.cfg.toConfig newClient_eq (by decide) (by decide) _ _ _ _ (by decide) (by decide) _ _ _ _ _ _ h1
      h3).mp h
    revert this
    decide +kernel

/-- C82_match: an exchange that ends with metadata. -/
example (r : ZMod client.suite.q) (hr : r ≠ 0) : ∃ x : Stored, ∃ z,
    keyTag ext.sha256 (oprf server.suite Example.cfg.privateKey (oprfInput ext 1 x.username x.password)) =
      keyTag ext.sha256 (client.suite.finalizeHash (oprfInput ext 1 (ascii "user") (ascii "Abc")) info (client.suite.ser z)) := by
  obtain ⟨kv, -, hh⟩ := example_history
  obtain ⟨st, m, h⟩ := C26_no_false_negative newClient_eq newServer_eq hh ⟨ascii "user", ascii "Abc", 2, ascii "A"⟩
    (List.mem_cons_of_mem _ (List.mem_cons_self ..)) r hr
  obtain ⟨x, -, -, g, z, -, -, hx⟩ := C82_match newClient_eq newServer_eq hh _ _ r st m none h
  exact ⟨x, _, hx⟩

/-! ## C83-C87 -/

/-- C83_more_lines, C83_order: a line is added; two lines are swapped. -/
example (sim : Bytes → List Bytes) (hs : sim (ascii "abc") = [ascii "Abc"]) :
    fileVerdict false sim [(ascii "user", ascii "abc"), (ascii "user", ascii "x")] (ascii "user") (ascii "Abc") ≠ .clean ∧
    (fileVerdict false sim [(ascii "user", ascii "abc"), (ascii "user", ascii "x")] (ascii "user") (ascii "y") = .clean ↔
      fileVerdict false sim [(ascii "user", ascii "x"), (ascii "user", ascii "abc")] (ascii "user") (ascii "y") = .clean) := by
  constructor
  · refine C83_more_lines _ _ [(ascii "user", ascii "abc")] _ (ascii "user") (ascii "Abc")
      (fun c hc _ => List.mem_cons.mpr (.inl (List.mem_singleton.mp hc))) ?_
    rw [verdict_congr (sim' := fun _ => [ascii "Abc"]) (by simp [hs])]
    decide +kernel
  · refine (C83_order _ _ _ _ _ _ fun c _ => ?_).1
    rw [List.mem_cons, List.mem_singleton, List.mem_cons, List.mem_singleton, or_comm]

/-- C83_num_variants, C83_num_variants_one_line: no variants, and two. -/
example (u p : Bytes) : ∃ sim0 sim2 : Bytes → List Bytes,
    (fileVerdict false sim2 [(ascii "user", ascii "password1"), (ascii "user", ascii "Password1")] u p =
        fileVerdict false sim0 [(ascii "user", ascii "password1"), (ascii "user", ascii "Password1")] u p ∨
      ∃ q, (u, q) ∈ [(ascii "user", ascii "password1"), (ascii "user", ascii "Password1")] ∧ q ≠ p ∧ p ∈ sim2 q ∧ p ∉ sim0 q) ∧
    fileVerdict false sim2 [(ascii "user", ascii "password1")] (ascii "user") (ascii "password1") =
      fileVerdict false sim0 [(ascii "user", ascii "password1")] (ascii "user") (ascii "password1") := by
  obtain ⟨sim0, e0⟩ := mutate_variants 0 (by decide) (by decide)
  obtain ⟨sim2, e2⟩ := mutate_variants 2 (by decide) (by decide)
  refine ⟨sim0, sim2, (C83_num_variants false (by decide) e0 e2 _ u p).imp id fun h => h.2.2, ?_⟩
  refine C83_num_variants_one_line false (by decide) e0 e2 _ _ _ ?_ (.inl ?_)
  · intro q q' h h'
    rw [(Prod.mk.inj (List.mem_singleton.mp h)).2, (Prod.mk.inj (List.mem_singleton.mp h')).2]
  · have h0 : sim0 (ascii "password1") = [] := by
      have h : mutate dasRules (ascii "password1") 0 = .ok [] := by decide +kernel
      exact Res.ok.inj ((e0 _).symm.trans h)
    rw [verdict_congr (sim' := fun _ => []) (by simp [h0])]
    decide +kernel

/-- C84_shows: two buckets with the same bytes. -/
example : SameShape [⟨ascii "a", ascii "b", 1, [1]⟩, ⟨ascii "a", ascii "b", 2, [2]⟩]
    [⟨ascii "c", ascii "d", 3, [3]⟩, ⟨ascii "c", ascii "d", 0, [0]⟩] := by
  refine C84_shows (P := fun _ => ⟨List.replicate 20 7, 4, fun _ => 5⟩) (Q := fun _ => ⟨List.replicate 20 7, 6, fun _ => 7⟩)
    (fun _ => rfl) (fun _ => rfl) ?_ ?_ ?_ ?_ (by decide +kernel)
  · intro x hx
    simp only [List.mem_cons, List.not_mem_nil, or_false] at hx
    rcases hx with rfl | rfl <;> decide
  · intro x hx
    simp only [List.mem_cons, List.not_mem_nil, or_false] at hx
    rcases hx with rfl | rfl <;> decide
  · intro x hx y hy hne
    simp only [List.mem_cons, List.not_mem_nil, or_false] at hx hy
    rcases hx with rfl | rfl <;> rcases hy with rfl | rfl <;> exact absurd rfl hne
  · intro x hx y hy hne
    simp only [List.mem_cons, List.not_mem_nil, or_false] at hx hy
    rcases hx with rfl | rfl <;> rcases hy with rfl | rfl <;> exact absurd rfl hne

/-- C85_client: the query of the example client. -/
example (rand : (S : Suite) → ZMod S.q) (net : List Sent → Transport) : ∃ body : Bytes,
    ((queryTalk ext Example.cfg.toConfig (ascii "user") (ascii "password") rand).run net []).1 = [.evaluate body] := by
  obtain ⟨body, -, -, -, -, -, -, -, h, -⟩ := C85_client (E := ext) newClient_eq (ascii "user") (ascii "password") (by decide)
    (by decide) (by decide) (by decide) rand
  exact ⟨body, h net []⟩

/-- C85_server: the document `foreign`, posted to the example server after an insert. -/
example : ∃ kv w, insertRecord ext server rec0 newKVStore = (kv, .ok ()) ∧
    serve server kv (fun _ _ => 0) (ascii "/evaluate") (some foreign) = some (.ok w) ∧ w.reply.status = 200 := by
  obtain ⟨kv, hi, hh⟩ := example_history
  obtain ⟨w, h1, h2⟩ := C85_server newServer_eq example_tweak hh (fun _ _ => 0) foreign_document foreign_request (by decide)
    (Example.toySuite.de_ser _)
  exact ⟨kv, w, hi, h1, by rw [h2]⟩

/-- Whether the process serves. -/
def isServing : Proc → Bool
  | .serving .. => true
  | _ => false

/-- C86_serving: a process that has read its file. -/
example : ∃ opened s kv, (World.after ext bootExample ⟨oldFile, .down⟩
      [.start ⟨7⟩ (fun _ _ => 0) (fun _ => 100) 100, .step, .step]).proc = .serving opened s kv ∧ opened = oldFile := by
  have h : isServing (World.after ext bootExample ⟨oldFile, .down⟩
      [.start ⟨7⟩ (fun _ _ => 0) (fun _ => 100) 100, .step, .step]).proc = true := by decide +kernel
  generalize hp : (World.after ext bootExample ⟨oldFile, .down⟩
      [.start ⟨7⟩ (fun _ _ => 0) (fun _ => 100) 100, .step, .step]).proc = p at h
  match p, h with
  | .serving opened s kv, _ =>
    refine ⟨opened, s, kv, rfl, ?_⟩
    obtain ⟨key, stale, chunk, readable, f, a, b, h1, h2, h3, -⟩ := C86_serving oldFile _ hp
    have hf : f = oldFile := List.mem_singleton.mp h2
    simp only [List.mem_cons, List.not_mem_nil, or_false, reduceCtorEq, Event.start.injEq] at h1
    obtain ⟨-, -, -, rfl⟩ := h1
    rw [h3, hf]
    decide +kernel

open Bufio Http in
/-- C87_prompt: the events of `C87_example` before the last credential. -/
example : printed ([.read (some (ascii "user:pass")), .read (some (ascii "word1\nbob:")),
    .print (ascii "{\"username\":\"user\",\"status\":\"password not in breach\"}\n")] : List ClientEvent) ≠ [] ∧
    ∃ lines rest, WholeLinesOf (ascii "user:password1\nbob:") lines rest := by
  obtain ⟨lines, rest, -, -, -, h, -⟩ := C87_prompt false (fun _ _ _ => .ret NotInBreach none none)
    [ascii "user:pass", ascii "word1\nbob:", ascii "x"] 10
    [.read (some (ascii "user:pass")), .read (some (ascii "word1\nbob:")),
      .print (ascii "{\"username\":\"user\",\"status\":\"password not in breach\"}\n")] (some (ascii "x")) _ C87_example
  exact ⟨by decide, lines, rest, h⟩

open Bufio Http in
/-- C87_client, C87_file: a file, with the example network. -/
example (kv : KV) (stale0 stale : Nat → Nat → UInt8) (chunk chunk' : Nat → Nat) (rand : Nat → (S : Suite) → ZMod S.q)
    (t : List ClientEvent)
    (ht : clientEvents false (fun k u p => Query ext Example.cfg.toConfig (deliver server kv stale0 (ascii "/evaluate")) u p (rand k)) 0
      ((Input.new (ascii "user:password\nuser:x")).run (diskReader chunk) 70) = t) :
    ∃ e, .exit e ∈ t ∧ clientMain ext ⟨none, false, false, some (given t)⟩ (exampleNet kv stale0 [.config])
      (fun _ => deliver server kv stale0 (ascii "/evaluate")) rand stale chunk' = ⟨printed t, false, e⟩ := by
  have hcfg := exampleNet_config kv stale0 stale
  obtain ⟨e, he, -⟩ := (C87_file (E := ext) chunk chunk' (ascii "user:password\nuser:x") 70 (by decide)).1
    (args := ⟨none, false, false, none⟩) (post := fun _ => deliver server kv stale0 (ascii "/evaluate")) (rand := rand) hcfg rfl
  dsimp only at he
  rw [ht] at he
  exact ⟨e, he, C87_client (E := ext) (args := ⟨none, false, false, none⟩) (post := fun _ => deliver server kv stale0 (ascii "/evaluate"))
    (rand := rand) hcfg rfl _ 70 e ht he chunk'⟩

open Bufio Http in
/-- C87_server: the events of `C87_listen_example`. -/
example (stale : Nat → Nat → UInt8) (chunk : Nat → Nat) : ∃ kv,
    serverMain ext ⟨none, false, [], 0, false, some (ascii "user:password1")⟩ ⟨7⟩ stale chunk = .serving server kv 1 0 := by
  obtain ⟨kv, h⟩ := C87_listen_example
  exact ⟨kv, ((C87_server (E := ext) (args := ⟨none, false, [], 0, false, none⟩) (key := ⟨7⟩) (stale := stale) rfl newServer_eq rfl _ 10
    h chunk).1 kv 1 0 (by simp)).1⟩

end Migp.Props
