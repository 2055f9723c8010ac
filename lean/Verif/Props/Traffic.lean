import Verif.Model.Traffic
import Verif.Props.Programs
import Verif.Props.FinalizeApi
/-!
# C70: what the server learns from a run of the client program
-/
namespace Migp.Props
open Migp.Json Migp.Spec Migp.Bufio

variable {E : Ext} {cfg : ServerConfig} {c : Client} {s : Server}

theorem run_bind {A B : Type} (net : List Sent → Transport) (t : Talk A) (f : A → Talk B) (before : List Sent) :
    (t.bind f).run net before = (f (t.run net before).2).run net (t.run net before).1 := by
  induction t generalizing before with
  | done a => rfl
  | send m k ih => exact ih _ _

/-- The body that a call of `Query` posts, if it gets that far. -/
def sentBody (E : Ext) (cfg : Config) (u p : Bytes) (rand : (S : Suite) → ZMod S.q) : Option Bytes :=
  match NewClient E cfg with
  | .ok c =>
    match c.request E u p (rand c.suite) with
    | .ok (req, _) => some req.marshalJSON
    | _ => none
  | _ => none

theorem queryTalk_run (cfg : Config) (u p : Bytes) (rand : (S : Suite) → ZMod S.q) (net : List Sent → Transport)
    (before : List Sent) :
    (queryTalk E cfg u p rand).run net before =
      (before ++ (sentBody E cfg u p rand).toList.map Sent.evaluate,
        Query E cfg (fun b => net (before ++ [.evaluate b])) u p rand) := by
  unfold queryTalk sentBody Query
  cases NewClient E cfg with
  | panic q => simp [Talk.run]
  | err e => simp [Talk.run]
  | ok c =>
    dsimp only
    cases c.request E u p (rand c.suite) with
    | panic q => simp [Talk.run]
    | err e => simp [Talk.run]
    | ok rc =>
      obtain ⟨req, ctx⟩ := rc
      dsimp only [Talk.run, Option.toList, List.map]
      cases net (before ++ [Sent.evaluate req.marshalJSON]) with
      | failed => rfl
      | reply st body =>
        dsimp only
        split
        · rfl
        · cases body with
          | none => rfl
          | some body =>
            dsimp only
            cases ServerResponse.unmarshalBinary body <;> rfl

theorem query_sends (cfg : Config) (u p : Bytes) (rand : (S : Suite) → ZMod S.q) (post : Bytes → Transport)
    (st : BreachStatus) (md : Option Bytes) (h : Query E cfg post u p rand = .ret st md none) :
    ∃ b, sentBody E cfg u p rand = some b := by
  unfold Query at h
  unfold sentBody
  cases hc : NewClient E cfg with
  | panic q => rw [hc] at h; cases h
  | err e => rw [hc] at h; cases h
  | ok c =>
    rw [hc] at h
    dsimp only at h ⊢
    cases hr : c.request E u p (rand c.suite) with
    | panic q => rw [hr] at h; cases h
    | err e => rw [hr] at h; cases h
    | ok rc => exact ⟨_, rfl⟩

/-- The loop over the credentials, with the messages. -/
def credRun (E : Ext) (cfg : Config) (rand : Nat → (S : Suite) → ZMod S.q) (show_ : Bool) (net : List Sent → Transport) :
    (k : Nat) → (before : List Sent) → List (Bytes × Bytes) → List Sent × (Bytes × Exit)
  | _, before, [] => (before, ([], .ok))
  | k, before, (u, p) :: rest =>
    let sent := before ++ (sentBody E cfg u p (rand k)).toList.map Sent.evaluate
    match Query E cfg (fun b => net (before ++ [.evaluate b])) u p (rand k) with
    | .panic q => (sent, ([], .panic q))
    | .ret _ _ (some _) => (sent, ([], .failure))
    | .ret st md none =>
      let r := credRun E cfg rand show_ net (k + 1) sent rest
      (r.1, (clientObject show_ u p st md ++ [10] ++ r.2.1, r.2.2))

theorem linesTalk_run (cfg : Config) (rand : Nat → (S : Suite) → ZMod S.q) (show_ : Bool) (net : List Sent → Transport)
    (lines : List Bytes) (parts : List (Option (Bytes × Bytes))) (hp : List.Forall₂ IsPart lines parts) (k : Nat)
    (before : List Sent) :
    (linesTalk show_ (fun k u p => queryTalk E cfg u p (rand k)) k lines).run net before =
      credRun E cfg rand show_ net k before (credentials parts) := by
  induction hp generalizing k before with
  | nil => rfl
  | @cons line o lines parts ho _ ih =>
    cases o with
    | none =>
      have hc : credentials (none :: parts) = credentials parts := rfl
      rw [hc, linesTalk, isPart_none_iff.mp ho]
      exact ih k before
    | some x =>
      obtain ⟨u, p⟩ := x
      have hc : credentials (some (u, p) :: parts) = (u, p) :: credentials parts := rfl
      rw [hc, linesTalk, isPart_some_iff.mp ho, credRun]
      dsimp only
      rw [run_bind, queryTalk_run]
      dsimp only
      cases Query E cfg (fun b => net (before ++ [.evaluate b])) u p (rand k) with
      | panic q => rfl
      | ret st md err =>
        cases err with
        | some e => rfl
        | none =>
          dsimp only
          rw [run_bind, ih (k + 1)]
          rfl

/-- The messages before the first query: the configuration is fetched unless it is in a file. -/
def opening (args : ClientArgs) : List Sent := if args.config = none then [.config] else []

theorem configTalk_run (args : ClientArgs) (stale : Nat → Nat → UInt8) (net : List Sent → Transport) :
    (configTalk args.config stale).run net [] = (opening args, clientConfig args.config (net [.config]) stale) := by
  unfold configTalk clientConfig opening
  cases args.config with
  | some o =>
    cases o with
    | none => rfl
    | some data =>
      dsimp only [Talk.run]
      simp
  | none =>
    dsimp only [Talk.run, List.nil_append]
    cases net [Sent.config] with
    | failed => rfl
    | reply st body =>
      dsimp only
      split
      · rfl
      · cases body with
        | none => rfl
        | some body => rfl

theorem clientTalk_run {args : ClientArgs} {rand : Nat → (S : Suite) → ZMod S.q} {stale : Nat → Nat → UInt8}
    {chunk : Nat → Nat} {net : List Sent → Transport} {ccfg : Config} {file : Bytes}
    (hcfg : clientConfig args.config (net [.config]) stale = some ccfg) (hd : args.dumpConfig = false)
    (hf : args.infile = some file) {parts : List (Option (Bytes × Bytes))} (hp : ReadsAs file parts) :
    (clientTalk E args rand stale chunk).run net [] =
      let r := credRun E ccfg rand args.showPassword net 0 (opening args) (credentials parts)
      (r.1, ⟨r.2.1, decide (ccfg.version ≠ DefaultMIGPVersion), r.2.2⟩) := by
  unfold clientTalk
  rw [run_bind, configTalk_run, hcfg]
  dsimp only
  rw [hd, if_neg (by simp), hf]
  dsimp only
  rw [run_bind, linesTalk_run _ _ _ _ _ _ (scannedLines_parts chunk file parts hp)]
  rfl

/-- The number of queries among the messages. -/
def evaluates (l : List Sent) : Nat := l.countP (fun m => m ≠ .config)

theorem credRun_fixed (cfg : Config) (rand : Nat → (S : Suite) → ZMod S.q) (show_ : Bool) (net : List Sent → Transport)
    (post : Nat → Bytes → Transport) (hnet : ∀ l b, net (l ++ [.evaluate b]) = post (evaluates l) b)
    (creds : List (Bytes × Bytes)) (k : Nat) (before : List Sent) (hk : evaluates before = k) :
    (credRun E cfg rand show_ net k before creds).2 =
      queryCreds show_ (fun k u p => Query E cfg (post k) u p (rand k)) k creds := by
  induction creds generalizing k before with
  | nil => rfl
  | cons x creds ih =>
    obtain ⟨u, p⟩ := x
    have hpost : (fun b => net (before ++ [.evaluate b])) = post k := by
      funext b; rw [hnet, hk]
    rw [credRun, queryCreds, hpost]
    dsimp only
    cases hq : Query E cfg (post k) u p (rand k) with
    | panic q => rfl
    | ret st md err =>
      cases err with
      | some e => rfl
      | none =>
        dsimp only
        obtain ⟨b, hb⟩ := query_sends cfg u p (rand k) (post k) st md hq
        rw [hb, ih (k + 1) _ (by simp [evaluates, ← hk, List.countP_append])]

/-- C70: the conversation is the client program of C57, C60 and C64: whatever a network would answer to the request for
the configuration and to the `k`-th query, the outcome is the same. -/
theorem C70_same_program (args : ClientArgs) (get : Transport) (post : Nat → Bytes → Transport)
    (rand : Nat → (S : Suite) → ZMod S.q) (stale : Nat → Nat → UInt8) (chunk : Nat → Nat) (net : List Sent → Transport)
    (hget : net [.config] = get) (hpost : ∀ l b, net (l ++ [.evaluate b]) = post (evaluates l) b) :
    ((clientTalk E args rand stale chunk).run net []).2 = clientMain E args get post rand stale chunk := by
  cases hcfg : clientConfig args.config get stale with
  | none =>
    unfold clientTalk clientMain
    rw [run_bind, configTalk_run, hget, hcfg]
    rfl
  | some ccfg =>
    cases hd : args.dumpConfig with
    | true =>
      unfold clientTalk clientMain
      rw [run_bind, configTalk_run, hget, hcfg]
      dsimp only
      rw [hd]
      rfl
    | false =>
      cases hf : args.infile with
      | none =>
        unfold clientTalk clientMain
        rw [run_bind, configTalk_run, hget, hcfg]
        dsimp only
        rw [hd, if_neg (by simp), if_neg (by simp), hf]
        rfl
      | some file =>
        obtain ⟨parts, hp, _⟩ := C55_reads file
        rw [clientTalk_run (by rw [hget]; exact hcfg) hd hf hp, clientMain_creds hcfg hd hf hp]
        dsimp only
        rw [credRun_fixed ccfg rand _ net post hpost _ 0 _ (by unfold opening evaluates; split <;> rfl)]

/-- The bodies of the queries for credentials, from the `k`-th query on. -/
def bodiesOf (E : Ext) (cfg : Config) (rand : Nat → (S : Suite) → ZMod S.q) : Nat → List (Bytes × Bytes) → List Bytes
  | _, [] => []
  | k, (u, p) :: rest => (sentBody E cfg u p (rand k)).getD [] :: bodiesOf E cfg rand (k + 1) rest

theorem bodiesOf_length (cfg : Config) (rand : Nat → (S : Suite) → ZMod S.q) (creds : List (Bytes × Bytes)) (k : Nat) :
    (bodiesOf E cfg rand k creds).length = creds.length := by
  induction creds generalizing k with
  | nil => rfl
  | cons x creds ih => simp [bodiesOf, ih]

theorem bodiesOf_getElem (cfg : Config) (rand : Nat → (S : Suite) → ZMod S.q) (creds : List (Bytes × Bytes)) (k i : Nat)
    (u p : Bytes) (h : creds[i]? = some (u, p)) :
    (bodiesOf E cfg rand k creds)[i]? = some ((sentBody E cfg u p (rand (k + i))).getD []) := by
  induction creds generalizing k i with
  | nil => cases h
  | cons x creds ih =>
    cases i with
    | zero => obtain rfl := Option.some.inj h; rfl
    | succ i =>
      rw [show k + (i + 1) = k + 1 + i by omega]
      exact ih (k + 1) i h

theorem credRun_messages (cfg : Config) (rand : Nat → (S : Suite) → ZMod S.q) (show_ : Bool) (net : List Sent → Transport)
    (creds : List (Bytes × Bytes)) (k : Nat) (before : List Sent)
    (hs : ∀ x ∈ creds, ∀ k, sentBody E cfg x.1 x.2 (rand k) ≠ none) :
    ∃ n, (credRun E cfg rand show_ net k before creds).1 =
        before ++ ((bodiesOf E cfg rand k creds).take n).map Sent.evaluate ∧
      ((credRun E cfg rand show_ net k before creds).2.2 = .ok → creds.length ≤ n) := by
  induction creds generalizing k before with
  | nil => exact ⟨0, by simp [credRun, bodiesOf], fun _ => Nat.le_refl _⟩
  | cons x creds ih =>
    obtain ⟨u, p⟩ := x
    obtain ⟨b, hb⟩ := Option.ne_none_iff_exists'.mp (hs (u, p) List.mem_cons_self k)
    dsimp only at hb
    rw [credRun]
    dsimp only
    rw [hb]
    cases Query E cfg (fun b => net (before ++ [.evaluate b])) u p (rand k) with
    | panic q => exact ⟨1, by simp [bodiesOf, hb], fun h => by cases h⟩
    | ret st md err =>
      cases err with
      | some e => exact ⟨1, by simp [bodiesOf, hb], fun h => by cases h⟩
      | none =>
        obtain ⟨n, h1, h2⟩ := ih (k + 1) (before ++ [.evaluate b]) (fun x hx => hs x (List.mem_cons_of_mem _ hx))
        refine ⟨n + 1, ?_, fun h => ?_⟩
        · dsimp only [Option.toList, List.map]
          rw [h1]
          simp [bodiesOf, hb]
        · have := h2 h
          rw [List.length_cons]
          omega

theorem sentBody_ok {ccfg : Config} (hc : NewClient E ccfg = .ok c) (h0 : 0 ≤ ccfg.bucketIDBitSize)
    (h32 : ccfg.bucketIDBitSize ≤ 32) (u p : Bytes) (hu : u.length ≤ 65536) (hp : p.length ≤ 65536)
    (rand : (S : Suite) → ZMod S.q) :
    ∃ req ctx, c.request E u p (rand c.suite) = .ok (req, ctx) ∧ sentBody E ccfg u p rand = some req.marshalJSON := by
  obtain ⟨id, _, _, hr⟩ := request_ok ccfg c hc u p hu hp h0 h32 (rand c.suite)
  refine ⟨_, _, hr, ?_⟩
  unfold sentBody
  rw [hc]
  dsimp only
  rw [hr]

/-- C70: what the client program may ever send is fixed before the first query by the configuration in use, the file
and the blinds: at most the request for the configuration, and then the requests for the credentials in order. The
replies, chosen by a server of any strategy on the basis of all messages, decide only after how many of them the
program stops; if it ends without failure it has sent all of them. -/
theorem C70_messages {args : ClientArgs} {rand : Nat → (S : Suite) → ZMod S.q} {ccfg : Config} {file : Bytes} (hc : NewClient E ccfg = .ok c)
    (h0 : 0 ≤ ccfg.bucketIDBitSize) (h32 : ccfg.bucketIDBitSize ≤ 32) (hd : args.dumpConfig = false)
    (hf : args.infile = some file) {parts : List (Option (Bytes × Bytes))} (hp : ReadsAs file parts) :
    ∃ bodies : List Bytes, bodies.length = (credentials parts).length ∧
      (∀ i u p, (credentials parts)[i]? = some (u, p) →
        ∃ req ctx, c.request E u p (rand i c.suite) = .ok (req, ctx) ∧ bodies[i]? = some req.marshalJSON) ∧
      ∀ net stale chunk, clientConfig args.config (net [.config]) stale = some ccfg →
        ∃ n, ((clientTalk E args rand stale chunk).run net []).1 = opening args ++ (bodies.take n).map Sent.evaluate ∧
          (((clientTalk E args rand stale chunk).run net []).2.exit = .ok → bodies.length ≤ n) := by
  have hlen : ∀ x ∈ credentials parts, x.1.length ≤ 65536 ∧ x.2.length ≤ 65536 :=
    fun x hx => by have := readsAs_lengths hp (u := x.1) (p := x.2) hx; omega
  refine ⟨bodiesOf E ccfg rand 0 (credentials parts), bodiesOf_length _ _ _ _, fun i u p hi => ?_, fun net stale chunk hcfg => ?_⟩
  · have hm := hlen (u, p) (List.mem_of_getElem? hi)
    obtain ⟨req, ctx, h1, h2⟩ := sentBody_ok hc h0 h32 u p hm.1 hm.2 (rand i)
    refine ⟨req, ctx, h1, ?_⟩
    rw [bodiesOf_getElem _ _ _ 0 i u p hi, Nat.zero_add, h2]
    rfl
  · rw [clientTalk_run hcfg hd hf hp]
    dsimp only
    obtain ⟨n, h1, h2⟩ := credRun_messages ccfg rand args.showPassword net (credentials parts) 0 (opening args)
      (fun x hx k => by
        obtain ⟨req, ctx, _, h2⟩ := sentBody_ok hc h0 h32 x.1 x.2 (hlen x hx).1 (hlen x hx).2 (rand k)
        rw [h2]; simp)
    exact ⟨n, h1, fun h => by rw [bodiesOf_length]; exact h2 h⟩

/-- C70: with `-dump-config`, without a usable configuration, or without a readable file no query is sent, whatever
comes back: at most the request for the configuration. -/
theorem C70_no_query (args : ClientArgs) (rand : Nat → (S : Suite) → ZMod S.q) (stale : Nat → Nat → UInt8)
    (chunk : Nat → Nat) (net : List Sent → Transport)
    (h : args.dumpConfig = true ∨ clientConfig args.config (net [.config]) stale = none ∨ args.infile = none) :
    ((clientTalk E args rand stale chunk).run net []).1 = opening args := by
  unfold clientTalk
  rw [run_bind, configTalk_run]
  dsimp only
  cases hcfg : clientConfig args.config (net [.config]) stale with
  | none => rfl
  | some ccfg =>
    dsimp only
    cases hd : args.dumpConfig with
    | true => rfl
    | false =>
      rw [if_neg (by simp)]
      rcases h with h | h | h
      · rw [h] at hd; cases hd
      · rw [h] at hcfg; cases hcfg
      · rw [h]; rfl

/-- C70: obliviousness of whole runs. Take two files with equally many credentials whose usernames are pairwise in the
same buckets. There are bijections of the blinds under which, for every strategy of the server, both runs send
the beginning of one and the same sequence of messages; runs that end without failure send all of it. So the server
learns the buckets, and when the program stops, and nothing else. -/
theorem C70_hiding {args : ClientArgs} {ccfg : Config} {file file' : Bytes} (hc : NewClient E ccfg = .ok c)
    (h0 : 0 ≤ ccfg.bucketIDBitSize) (h32 : ccfg.bucketIDBitSize ≤ 32) (hd : args.dumpConfig = false)
    {parts parts' : List (Option (Bytes × Bytes))} (hp : ReadsAs file parts) (hp' : ReadsAs file' parts')
    (hb : List.Forall₂ (fun x x' : Bytes × Bytes => c.bucketID E x.1 = c.bucketID E x'.1)
      (credentials parts) (credentials parts'))
    (he : ∀ x ∈ credentials parts ++ credentials parts',
      c.suite.hashToElement (Spec.oprfInput E ccfg.slowHasherID x.1 x.2) ≠ 0) :
    ∃ f : Nat → {r : ZMod c.suite.q // r ≠ 0} ≃ {r : ZMod c.suite.q // r ≠ 0},
      ∀ (r : Nat → {r : ZMod c.suite.q // r ≠ 0}) (rand rand' : Nat → (S : Suite) → ZMod S.q),
        (∀ i, rand i c.suite = (r i).1) → (∀ i, rand' i c.suite = (f i (r i)).1) →
        ∃ msgs : List Sent, ∀ net stale chunk stale' chunk',
          clientConfig args.config (net [.config]) stale = some ccfg →
          clientConfig args.config (net [.config]) stale' = some ccfg →
          let run := (clientTalk E { args with infile := some file } rand stale chunk).run net []
          let run' := (clientTalk E { args with infile := some file' } rand' stale' chunk').run net []
          run.1 <+: msgs ∧ run'.1 <+: msgs ∧ (run.2.exit = .ok → run.1 = msgs) ∧ (run'.2.exit = .ok → run'.1 = msgs) := by
  have hlen : ∀ x ∈ credentials parts, x.1.length ≤ 65536 ∧ x.2.length ≤ 65536 :=
    fun x hx => by have := readsAs_lengths hp (u := x.1) (p := x.2) hx; omega
  have hlen' : ∀ x ∈ credentials parts', x.1.length ≤ 65536 ∧ x.2.length ≤ 65536 :=
    fun x hx => by have := readsAs_lengths hp' (u := x.1) (p := x.2) hx; omega
  have hll := hb.length_eq
  have hf : ∀ i : Nat, ∃ f : {r : ZMod c.suite.q // r ≠ 0} ≃ {r : ZMod c.suite.q // r ≠ 0},
      ∀ u p u' p', (credentials parts)[i]? = some (u, p) → (credentials parts')[i]? = some (u', p') →
        ∀ r, ∃ req ctx ctx', c.request E u p r.1 = .ok (req, ctx) ∧ c.request E u' p' (f r).1 = .ok (req, ctx') := by
    intro i
    cases h1 : (credentials parts)[i]? with
    | none => exact ⟨Equiv.refl _, fun u p u' p' h => by cases h⟩
    | some x =>
      obtain ⟨hi, rfl⟩ := List.getElem?_eq_some_iff.mp h1
      have hi' : i < (credentials parts').length := by omega
      have hm := List.getElem_mem hi
      have hm' := List.getElem_mem hi'
      obtain ⟨f, hf⟩ := C16_hiding ccfg c hc _ _ _ _ (hlen _ hm).1 (hlen _ hm).2 (hlen' _ hm').1 (hlen' _ hm').2 h0 h32
        ((List.forall₂_iff_get.mp hb).2 i hi hi')
        (he _ (List.mem_append_left _ hm)) (he _ (List.mem_append_right _ hm'))
      refine ⟨f, fun u p u' p' h h' r => ?_⟩
      rw [List.getElem?_eq_getElem hi'] at h'
      have e1 := Option.some.inj h
      have e2 := Option.some.inj h'
      have := hf r
      rw [e1, e2] at this
      exact this
  choose f hf using hf
  refine ⟨f, fun r rand rand' hr hr' => ?_⟩
  obtain ⟨bodies, hl, hbod, hrun⟩ := C70_messages (args := { args with infile := some file }) (rand := rand)
    hc h0 h32 hd rfl hp
  obtain ⟨bodies', hl', hbod', hrun'⟩ := C70_messages (args := { args with infile := some file' }) (rand := rand')
    hc h0 h32 hd rfl hp'
  have hsame : bodies = bodies' := by
    apply List.ext_getElem?
    intro i
    by_cases hi : i < (credentials parts).length
    · have hi' : i < (credentials parts').length := by omega
      have e1 := List.getElem?_eq_getElem hi
      have e2 := List.getElem?_eq_getElem hi'
      obtain ⟨req, ctx, q1, q2⟩ := hbod i _ _ e1
      obtain ⟨req', ctx', q1', q2'⟩ := hbod' i _ _ e2
      obtain ⟨req0, ctx0, ctx0', t1, t2⟩ := hf i _ _ _ _ e1 e2 (r i)
      rw [hr i, t1] at q1
      rw [hr' i, t2] at q1'
      obtain rfl := (Prod.mk.inj (Res.ok.inj q1)).1
      obtain rfl := (Prod.mk.inj (Res.ok.inj q1')).1
      rw [q2, q2']
    · rw [List.getElem?_eq_none (by omega), List.getElem?_eq_none (by omega)]
  subst hsame
  have hpre : ∀ n, opening args ++ (bodies.take n).map Sent.evaluate <+: opening args ++ bodies.map Sent.evaluate := by
    intro n
    rw [List.prefix_append_right_inj]
    exact (List.take_prefix n bodies).map Sent.evaluate
  refine ⟨opening args ++ bodies.map Sent.evaluate, fun net stale chunk stale' chunk' hcfg hcfg' => ?_⟩
  obtain ⟨n, h1, h2⟩ := hrun net stale chunk hcfg
  obtain ⟨n', h1', h2'⟩ := hrun' net stale' chunk' hcfg'
  dsimp only
  rw [h1, h1']
  refine ⟨hpre n, hpre n', fun h => ?_, fun h => ?_⟩
  · rw [List.take_of_length_le (h2 h)]; rfl
  · rw [List.take_of_length_le (h2' h)]; rfl

/-- The tag of the entries of a credential. -/
def credTag (E : Ext) (cfg : ServerConfig) (s : Server) (x : Bytes × Bytes) : Bytes :=
  Spec.keyTag E.sha256 (Spec.oprf s.suite s.privateKey (Spec.oprfInput E cfg.slowHasherID x.1 x.2))

/-- A bucket with an entry for each guess, and then a header that announces more than there is. -/
def trap (E : Ext) (cfg : ServerConfig) (s : Server) (guesses : List (Bytes × Bytes)) : Bytes :=
  Spec.bucket (guesses.map (fun g => ⟨credTag E cfg s g, 0, []⟩)) ++ (List.replicate 21 0 ++ Spec.len32 1 ++ [])

theorem trap_answer (enc : BucketEncryptor) (cfg : ServerConfig) (s : Server) (guesses : List (Bytes × Bytes))
    (x : Bytes × Bytes) :
    (∃ st md, finalizeLoop E enc (entryKey E cfg s x.1 x.2) (trap E cfg s guesses) 0 = .ret st md none) ∧
        (∃ g ∈ guesses, credTag E cfg s g = credTag E cfg s x) ∨
    (∃ e, finalizeLoop E enc (entryKey E cfg s x.1 x.2) (trap E cfg s guesses) 0 = .ret NotInBreach none (some e)) ∧
        ∀ g ∈ guesses, credTag E cfg s g ≠ credTag E cfg s x := by
  have hwf : ∀ e ∈ guesses.map (fun g => (⟨credTag E cfg s g, 0, []⟩ : Spec.RawEntry)), e.WF := by
    intro e he
    obtain ⟨g, _, rfl⟩ := List.mem_map.mp he
    exact ⟨keyTag_length E _, by simp⟩
  unfold trap
  rw [finalizeLoop_bucket E enc _ _ hwf]
  cases hm : Spec.firstMatch E.sha256 (entryKey E cfg s x.1 x.2)
      (guesses.map (fun g => (⟨credTag E cfg s g, 0, []⟩ : Spec.RawEntry))) with
  | some e =>
    left
    unfold Spec.firstMatch at hm
    have h1 := List.mem_of_find?_eq_some hm
    have h2 := List.find?_some hm
    obtain ⟨g, hg, rfl⟩ := List.mem_map.mp h1
    refine ⟨?_, g, hg, of_decide_eq_true h2⟩
    dsimp only
    unfold openResult
    rw [if_pos (by simp)]
    exact ⟨_, _, rfl⟩
  | none =>
    right
    refine ⟨⟨.bucketParse, ?_⟩, fun g hg => ?_⟩
    · dsimp only
      exact finalizeLoop_overrun enc _ _ _ _ (by simp) (by simp) (by simp)
    · unfold Spec.firstMatch at hm
      have := List.find?_eq_none.mp hm _ (List.mem_map.mpr ⟨g, hg, rfl⟩)
      exact fun h => this (decide_eq_true h)

/-- C70: but the moment the program stops can say everything. For every list of guesses a server can prepare its
buckets so that a client program with a credential, and at least one more after it, sends a second query exactly if the
tag of the credential is that of one of the guesses. (Everything else about this server is honest.) -/
theorem C70_stopping_leaks (hs : NewServer E cfg = .ok s) (h33 : s.suite.elemLen = 33)
    (ht : Spec.tweak s.suite s.privateKey ≠ 0) (h0 : 0 ≤ cfg.bucketIDBitSize) (h32 : cfg.bucketIDBitSize ≤ 32)
    (guesses : List (Bytes × Bytes)) :
    ∃ kv : KV, ∀ (net : List Sent → Transport) (stale0 : Nat → Nat → UInt8),
      (∀ l b, net (l ++ [.evaluate b]) = deliver s kv stale0 (ascii "/evaluate") b) →
      ∀ (args : ClientArgs) (rand : Nat → (S : Suite) → ZMod S.q) (stale : Nat → Nat → UInt8) (chunk : Nat → Nat)
        (file : Bytes) (parts : List (Option (Bytes × Bytes))) (x y : Bytes × Bytes) (rest : List (Bytes × Bytes)),
        clientConfig args.config (net [.config]) stale = some cfg.toConfig → args.dumpConfig = false →
        args.infile = some file → ReadsAs file parts → credentials parts = x :: y :: rest → rand 0 s.suite ≠ 0 →
        s.suite.hashToElement (Spec.oprfInput E cfg.slowHasherID x.1 x.2) ≠ 0 →
        let sent := ((clientTalk E args rand stale chunk).run net []).1
        1 ≤ evaluates sent ∧ (2 ≤ evaluates sent ↔ ∃ g ∈ guesses, credTag E cfg s g = credTag E cfg s x) := by
  obtain ⟨c, hc⟩ := newClient_of_newServer hs
  have hsuite := suite_eq hc hs
  refine ⟨⟨fun _ => trap E cfg s guesses⟩, ?_⟩
  intro net stale0 hnet args rand stale chunk file parts x y rest hcfg hd hf hp hcr hr he
  have hlen : ∀ z ∈ credentials parts, z.1.length ≤ 65536 ∧ z.2.length ≤ 65536 :=
    fun z hz => by have := readsAs_lengths hp (u := z.1) (p := z.2) hz; omega
  have hbody : ∀ z ∈ credentials parts, ∀ k, ∃ b, sentBody E cfg.toConfig z.1 z.2 (rand k) = some b := by
    intro z hz k
    obtain ⟨req, ctx, _, h2⟩ := sentBody_ok hc h0 h32 z.1 z.2 (hlen z hz).1 (hlen z hz).2 (rand k)
    exact ⟨_, h2⟩
  have hmono : ∀ (creds : List (Bytes × Bytes)) (k : Nat) (before : List Sent),
      evaluates before ≤ evaluates (credRun E cfg.toConfig rand args.showPassword net k before creds).1 := by
    intro creds
    induction creds with
    | nil => intro k before; exact Nat.le_refl _
    | cons z creds ih =>
      intro k before
      have h1 : evaluates before ≤ evaluates (before ++ (sentBody E cfg.toConfig z.1 z.2 (rand k)).toList.map
          Sent.evaluate) := by
        unfold evaluates; rw [List.countP_append]; omega
      rw [credRun]
      dsimp only
      split
      · exact h1
      · exact h1
      · exact Nat.le_trans h1 (ih _ _)
  have hopen : evaluates (opening args) = 0 := by unfold opening evaluates; split <;> rfl
  rw [clientTalk_run hcfg hd hf hp, hcr]
  dsimp only
  have hpost : (fun b => net (opening args ++ [.evaluate b])) =
      deliver s ⟨fun _ => trap E cfg s guesses⟩ stale0 (ascii "/evaluate") := by
    funext b; exact hnet _ _
  have hx : x ∈ credentials parts := by rw [hcr]; simp
  have hy : y ∈ credentials parts := by rw [hcr]; simp
  obtain ⟨b, hb⟩ := hbody x hx 0
  obtain ⟨b', hb'⟩ := hbody y hy 1
  have hev : evaluates (opening args ++ [Sent.evaluate b]) = 1 := by
    unfold evaluates at hopen ⊢
    rw [List.countP_append, hopen]
    rfl
  have hev' : evaluates (opening args ++ [Sent.evaluate b] ++ [Sent.evaluate b']) = 2 := by
    unfold evaluates at hev ⊢
    rw [List.countP_append, hev]
    rfl
  have hq : Query E cfg.toConfig (deliver s ⟨fun _ => trap E cfg s guesses⟩ stale0 (ascii "/evaluate")) x.1 x.2 (rand 0) =
      finalizeLoop E c.bucketEncryptor (entryKey E cfg s x.1 x.2) (trap E cfg s guesses) 0 := by
    rw [C54_query_eq_exchange hc hs h33 ht _ stale0 x.1 x.2 (rand 0) (by rw [hsuite]; exact hr)
      (by rw [hsuite]; exact he)]
    have hl := hlen x hx
    rcases exchange_cases hc hs x.1 x.2 (rand 0 c.suite) with ⟨h1, -⟩ | ⟨h1, -⟩ | ⟨-, -, -, id, secret, h1, h2, h3⟩
    · omega
    · exact absurd h1 ht
    · rw [h3, h2 (by rw [hsuite]; exact hr)]
  rw [credRun]
  dsimp only
  rw [hpost, hq, hb]
  rcases trap_answer (E := E) c.bucketEncryptor cfg s guesses x with ⟨⟨st, md, h1⟩, h2⟩ | ⟨⟨e, h1⟩, h2⟩
  · rw [h1]
    dsimp only [Option.toList, List.map]
    have h3 : 2 ≤ evaluates (credRun E cfg.toConfig rand args.showPassword net (0 + 1)
        (opening args ++ [Sent.evaluate b]) (y :: rest)).1 := by
      rw [credRun]
      dsimp only
      rw [show 0 + 1 = 1 from rfl, hb']
      dsimp only [Option.toList, List.map]
      split
      · rw [hev']
      · rw [hev']
      · rw [← hev']
        exact hmono _ _ _
    exact ⟨by omega, fun _ => h2, fun _ => h3⟩
  · rw [h1]
    dsimp only [Option.toList, List.map]
    rw [hev]
    refine ⟨Nat.le_refl _, fun h => absurd h (by decide), ?_⟩
    rintro ⟨g, hg, hgx⟩
    exact absurd hgx (h2 g hg)

/-- Two files for the example. -/
theorem traffic_reads : ReadsAs (ascii "user:password\nuser:x") [some (ascii "user", ascii "password"), some (ascii "user", ascii "x")] ∧
    ReadsAs (ascii "user:password1\nuser:x") [some (ascii "user", ascii "password1"), some (ascii "user", ascii "x")] := by
  constructor
  · refine ⟨[ascii "user:password", ascii "user:x"], [ascii "user:password", ascii "user:x"], ?_, ?_, ?_⟩
    · exact .line (ascii "user:password") (ascii "user:x") _ (by decide) (.last _ (by decide) (by decide))
    · have : ([ascii "user:password", ascii "user:x"] : List Bytes).takeWhile (fun l => l.length ≤ 65535) =
        [ascii "user:password", ascii "user:x"] := by decide
      rw [this]
      exact .cons (dropCR_chomped _) (.cons (dropCR_chomped _) .nil)
    · exact .cons ⟨rfl, by decide⟩ (.cons ⟨rfl, by decide⟩ .nil)
  · refine ⟨[ascii "user:password1", ascii "user:x"], [ascii "user:password1", ascii "user:x"], ?_, ?_, ?_⟩
    · exact .line (ascii "user:password1") (ascii "user:x") _ (by decide) (.last _ (by decide) (by decide))
    · have : ([ascii "user:password1", ascii "user:x"] : List Bytes).takeWhile (fun l => l.length ≤ 65535) =
        [ascii "user:password1", ascii "user:x"] := by decide
      rw [this]
      exact .cons (dropCR_chomped _) (.cons (dropCR_chomped _) .nil)
    · exact .cons ⟨rfl, by decide⟩ (.cons ⟨rfl, by decide⟩ .nil)

/-- The network of the example: the honest handlers on some store. -/
def exampleNet (kv : KV) (stale : Nat → Nat → UInt8) (l : List Sent) : Transport :=
  match l.getLast? with
  | some (.evaluate b) => deliver Example.server kv stale (ascii "/evaluate") b
  | _ => deliver Example.server kv stale (ascii "/config") []

theorem exampleNet_config (kv : KV) (stale0 stale : Nat → Nat → UInt8) :
    clientConfig none (exampleNet kv stale0 [.config]) stale = some Example.cfg.toConfig :=
  clientConfig_from_server Example.newServer_eq (by decide) kv stale0 stale

theorem exampleNet_evaluate (kv : KV) (stale0 : Nat → Nat → UInt8) (l : List Sent) (b : Bytes) :
    exampleNet kv stale0 (l ++ [.evaluate b]) = deliver Example.server kv stale0 (ascii "/evaluate") b := by
  unfold exampleNet
  rw [List.getLast?_concat]

/-- C70, concrete files that fulfil the hypotheses: with one guess in the buckets, the program with the guessed
password sends a second query, the program with another one does not. -/
theorem C70_example : ∃ kv : KV, ∀ (stale0 stale : Nat → Nat → UInt8) (chunk : Nat → Nat)
    (rand : Nat → (S : Suite) → ZMod S.q), rand 0 Example.server.suite ≠ 0 →
    2 ≤ evaluates ((clientTalk Example.ext ⟨none, false, false, some (ascii "user:password\nuser:x")⟩ rand stale chunk).run
      (exampleNet kv stale0) []).1 ∧
    evaluates ((clientTalk Example.ext ⟨none, false, false, some (ascii "user:password1\nuser:x")⟩ rand stale chunk).run
      (exampleNet kv stale0) []).1 = 1 := by
  obtain ⟨kv, h⟩ := C70_stopping_leaks (E := Example.ext) (cfg := Example.cfg) (s := Example.server) Example.newServer_eq rfl
    example_tweak (by decide) (by decide) [(ascii "user", ascii "password")]
  refine ⟨kv, fun stale0 stale chunk rand hr => ?_⟩
  have h1 := h (exampleNet kv stale0) stale0 (exampleNet_evaluate kv stale0)
    ⟨none, false, false, some (ascii "user:password\nuser:x")⟩ rand stale chunk _ _ (ascii "user", ascii "password")
    (ascii "user", ascii "x") [] (exampleNet_config _ _ _) rfl rfl traffic_reads.1 rfl hr (toy_hash_ne _)
  have h2 := h (exampleNet kv stale0) stale0 (exampleNet_evaluate kv stale0)
    ⟨none, false, false, some (ascii "user:password1\nuser:x")⟩ rand stale chunk _ _ (ascii "user", ascii "password1")
    (ascii "user", ascii "x") [] (exampleNet_config _ _ _) rfl rfl traffic_reads.2 rfl hr (toy_hash_ne _)
  dsimp only at h1 h2
  refine ⟨h1.2.mpr ⟨_, List.mem_singleton.mpr rfl, rfl⟩, ?_⟩
  have hno : ¬ ∃ g ∈ [(ascii "user", ascii "password")], credTag Example.ext Example.cfg Example.server g =
      credTag Example.ext Example.cfg Example.server (ascii "user", ascii "password1") := by
    rintro ⟨g, hg, hgx⟩
    obtain rfl := List.mem_singleton.mp hg
    exact example_tags.1 hgx.symm
  have h3 := h2.1
  have h4 : ¬ _ := fun h5 => hno (h2.2.mp h5)
  omega

/-- `C70_hiding` applies to the two files of the example: they have the same bucket. -/
example : ∃ f : Nat → {r : ZMod Example.client.suite.q // r ≠ 0} ≃ {r : ZMod Example.client.suite.q // r ≠ 0},
    ∀ (r : Nat → {r : ZMod Example.client.suite.q // r ≠ 0}) (rand rand' : Nat → (S : Suite) → ZMod S.q),
      (∀ i, rand i Example.client.suite = (r i).1) → (∀ i, rand' i Example.client.suite = (f i (r i)).1) →
      ∃ msgs : List Sent, ∀ kv stale0 stale chunk,
        ((clientTalk Example.ext ⟨none, false, false, some (ascii "user:password\nuser:x")⟩ rand stale chunk).run
          (exampleNet kv stale0) []).1 <+: msgs ∧
        ((clientTalk Example.ext ⟨none, false, false, some (ascii "user:password1\nuser:x")⟩ rand' stale chunk).run
          (exampleNet kv stale0) []).1 <+: msgs := by
  obtain ⟨f, hf⟩ := C70_hiding (args := ⟨none, false, false, none⟩) Example.newClient_eq (by decide) (by decide) rfl
    traffic_reads.1 traffic_reads.2 (.cons rfl (.cons rfl .nil)) (fun _ _ => toy_hash_ne _)
  refine ⟨f, fun r rand rand' h1 h2 => ?_⟩
  obtain ⟨msgs, h⟩ := hf r rand rand' h1 h2
  refine ⟨msgs, fun kv stale0 stale chunk => ?_⟩
  have := h (exampleNet kv stale0) stale chunk stale chunk (exampleNet_config _ _ _) (exampleNet_config _ _ _)
  exact ⟨this.1, this.2.1⟩

end Migp.Props
