import Verif.Lemmas.ImportHeap
import Verif.Lemmas.UnmarshalHeap
import Verif.Props.Witness
/-!
# C65, C66, C67: memory that slices share
-/
namespace Migp.Props
open Migp.Spec Migp.HM Migp.Example

/-! ## C65: who may write to what -/

/-- C65: `Mutate` does not write to the password and returns variants in memory of their own: no two of them
share an array, and none shares one with anything that existed. -/
theorem C65_mutate {h : Heap} {password : Slice} {b : Bytes} (hp : Shows h.mem password b)
    (rules : List Mutator.RDasRule) (num : Int) :
    Does h (Mutator.mutateH rules password num) (Mutator.mutate rules b num) (Variants h.mem) :=
  (Mutator.mutate_sim hp rules num).does

/-- C65: `EncryptBucketEntry` writes to none of its arguments and returns new memory, whichever hasher is
configured, and even if its arguments overlap. -/
theorem C65_encrypt_entry (E : Ext) (s : Server) (flag : MetadataType) {h : Heap}
    {username password metadata : Slice} {u p m : Bytes} (hu : Shows h.mem username u) (hp : Shows h.mem password p)
    (hm : Shows h.mem metadata m) :
    DoesNew h (s.encryptBucketEntryH E username password flag metadata) (s.encryptBucketEntry E u p flag m) :=
  (encryptBucketEntry_sim E s flag hu hp hm).does

/-- C65: neither does the encryptor. -/
theorem C65_encryptor (E : Ext) (enc : BucketEncryptor) (flag : MetadataType) {h : Heap} {secret body : Slice}
    {s b : Bytes} (hs : Shows h.mem secret s) (hb : Shows h.mem body b) :
    DoesNew h (enc.encryptH E secret flag body) (enc.encrypt E s flag b) ∧
    Does h (enc.decryptHeaderH E secret body) (enc.decryptHeader E s b) (fun _ x y => x = y) ∧
    DoesNew h (enc.decryptBodyH E secret body) (enc.decryptBody E s b) :=
  ⟨(encrypt_sim E enc flag hs hb).does, (decryptHeader_sim E enc hs hb).does, (decryptBody_sim E enc hs hb).does⟩

/-- C65: the bucket hasher returns new memory; so does the slow hasher, except that the null hasher returns its
argument itself. -/
theorem C65_hashers (E : Ext) (bh : BucketHasher) (sh : SlowHasher) {h : Heap} {buf : Slice} {b : Bytes}
    (hb : Shows h.mem buf b) :
    DoesNew h (bh.hashH E buf) (bh.hash E b) ∧ Does h (sh.hashH E buf) (sh.hash E b) (SlowHashed sh h.mem buf) :=
  ⟨(bucketHash_sim E bh hb).does, (slowHash_sim E sh hb).does⟩

/-- C65: the bucket ID of the client and the server. -/
theorem C65_bucket_id (E : Ext) (c : Client) (s : Server) {h : Heap} {username : Slice} {u : Bytes}
    (hu : Shows h.mem username u) :
    Does h (c.bucketIDH E username) (c.bucketID E u) (fun _ x y => x = y) ∧
    Does h (s.bucketIDH E username) (s.bucketID E u) (fun _ x y => x = y) :=
  ⟨(bucketID_sim E _ _ hu).does, (bucketID_sim E _ _ hu).does⟩

/-- C65: `Request` writes to none of its arguments, and both the message and the context it returns are in new
memory. -/
theorem C65_request (E : Ext) (c : Client) (blind : ZMod c.suite.q) {h : Heap} {username password : Slice}
    {u p : Bytes} (hu : Shows h.mem username u) (hp : Shows h.mem password p) :
    Does h (c.requestH E username password blind) (c.request E u p blind) (Requested h.mem) :=
  (request_sim E c blind hu hp).does

/-- C65: `Finalize` writes to nothing that existed and returns the metadata in new memory. -/
theorem C65_finalize (E : Ext) {h : Heap} {ctx : ClientRequestContextH} {ctxv : ClientRequestContext}
    {resp : ServerResponseH} {respv : ServerResponse} (hx : ContextShows h.mem ctx ctxv)
    (hr : ResponseShows h.mem resp respv) :
    Does h (ctx.finalizeH E resp) (ctxv.finalize E respv).toRes (Finalized h.mem) :=
  (finalize_sim E hx hr).does

/-- C65: `HandleRequest` writes to nothing that existed; its response holds the very slice the store holds. -/
theorem C65_handle_request (s : Server) {h : Heap} {req : ClientRequestH} {reqv : ClientRequest}
    (hr : RequestShows h.mem req reqv) (store : GoString → Slice) (kv : KV)
    (hk : ∀ id, Shows h.mem (store id) (kv.store id)) :
    Does h (s.handleRequestH req (fun id => pure (store id))) (s.handleRequest reqv kv.get)
      (Handled h.mem (store req.bucketID)) :=
  (handleRequest_sim s hr store kv hk).does

/-- C65: `MarshalBinary` copies. -/
theorem C65_marshal {h : Heap} {r : ServerResponseH} {rv : ServerResponse} (hr : ResponseShows h.mem r rv) :
    DoesNew h r.marshalBinaryH rv.marshalBinary :=
  (marshalBinary_sim hr).does

theorem shows_overwritten {M M1 M2 : Memory} {sl : Slice} {b : Bytes} (n : NewSlice M M1 sl b)
    (o : OldOverwritten M M1 M2) : Shows M2 sl b := by
  obtain ⟨⟨h1, h2⟩, -, hl, hb, hs⟩ := n
  refine ⟨hl, hb, fun i hi => ?_⟩
  rw [← hs i hi]
  unfold Memory.byte
  cases hm : M1 sl.arr with
  | none => exact absurd hm h2
  | some c => rw [o _ c h1 hm]

/-- C65: a caller may overwrite the username and the password as soon as `Request` has returned, before the
answer is there: whatever the memory that existed before the call holds by then, `Finalize` gives the
answer for the credentials that were passed to `Request`. -/
theorem C65_overwrite_credentials (E : Ext) (c : Client) (blind : ZMod c.suite.q) {h h1 h2 : Heap}
    {username password : Slice} {u p : Bytes} (hu : Shows h.mem username u) (hp : Shows h.mem password p)
    {req : ClientRequestH} {ctx : ClientRequestContextH}
    (hreq : (c.requestH E username password blind).run h = (.ok (req, ctx), h1)) (ho : OldOverwritten h.mem h1.mem h2.mem) :
    ∃ reqv ctxv, c.request E u p blind = .ok (reqv, ctxv) ∧ RequestShows h2.mem req reqv ∧
      ∀ (resp : ServerResponseH) (respv : ServerResponse), ResponseShows h2.mem resp respv →
        Does h2 (ctx.finalizeH E resp) (ctxv.finalize E respv).toRes (Finalized h2.mem) := by
  rcases does_cases (request_sim E c blind hu hp).does with
    ⟨a, b, h', e1, e2, k, r⟩ | ⟨e, h', e1, e2, k⟩ | ⟨q, h', e1, e2, k⟩
  · have e := e1.symm.trans hreq
    obtain ⟨reqv, ctxv⟩ := b
    rw [Prod.mk.injEq] at e
    obtain ⟨ea, eh⟩ := e
    have ea := Res.ok.inj ea
    subst eh
    subst ea
    refine ⟨reqv, ctxv, e2, ⟨r.version, r.bucketID, shows_overwritten r.blindElement ho⟩, fun resp respv hr => ?_⟩
    exact (finalize_sim E ⟨r.client, shows_overwritten r.input ho, r.blind⟩ hr).does
  · have e := e1.symm.trans hreq
    rw [Prod.mk.injEq] at e
    cases e.1
  · have e := e1.symm.trans hreq
    rw [Prod.mk.injEq] at e
    cases e.1

/-- C65: the metadata stays what it is when the memory of the response (or anything else that existed before
`Finalize`) is overwritten. -/
theorem C65_metadata_survives (E : Ext) {h h1 h2 : Heap} {ctx : ClientRequestContextH}
    {ctxv : ClientRequestContext} {resp : ServerResponseH} {respv : ServerResponse} (hx : ContextShows h.mem ctx ctxv)
    (hr : ResponseShows h.mem resp respv) {x : FinalizeH} (hf : (ctx.finalizeH E resp).run h = (.ok x, h1))
    (ho : OldOverwritten h.mem h1.mem h2.mem) {md : Slice} (hm : x.metadata = some md) :
    ∃ b, ctxv.finalize E respv = .ret x.status (some b) x.error ∧ Shows h2.mem md b := by
  obtain ⟨k, d⟩ := (finalize_sim E hx hr).does
  rw [hf] at d
  cases ho' : ctxv.finalize E respv with
  | panic q => rw [ho'] at d; exact d.elim
  | ret st mb er =>
    rw [ho'] at d
    obtain ⟨e1, e2, e3⟩ := d
    dsimp only [Out.toRes] at e1 e2 e3
    rw [hm] at e3
    cases mb with
    | none => exact e3.elim
    | some b => exact ⟨b, by rw [e1, e2], shows_overwritten e3 ho⟩

/-- A username and a password that are slices of one line, the password with spare capacity behind it. -/
def exHeap : Heap := [ascii "bob:hunter2\nal"]
theorem ex_user : Shows exHeap.mem ⟨0, 0, 3, 3⟩ (ascii "bob") := by unfold Shows; decide
theorem ex_pass : Shows exHeap.mem ⟨0, 4, 7, 10⟩ (ascii "hunter2") := by unfold Shows; decide

/-- C65_request, C65_overwrite_credentials, C65_finalize: a request that succeeds on that heap, after which
the line is overwritten with another. -/
example (r : ZMod client.suite.q) : ∃ req ctx, ∃ h1 h2 : Heap, (client.requestH ext ⟨0, 0, 3, 3⟩ ⟨0, 4, 7, 10⟩ r).run exHeap =
      (.ok (req, ctx), h1) ∧ OldOverwritten exHeap.mem h1.mem h2.mem ∧ h2.read ⟨0, 0, 3, 3⟩ = ascii "xxx" ∧
      ∃ reqv ctxv, client.request ext (ascii "bob") (ascii "hunter2") r = .ok (reqv, ctxv) ∧
        RequestShows h2.mem req reqv ∧ ContextShows h2.mem ctx ctxv := by
  obtain ⟨reqv, ctxv, -, hv, -⟩ := example_request newKVStore (ascii "bob") (ascii "hunter2") (by decide)
    (by decide) r
  rcases does_cases (request_sim ext client r ex_user ex_pass).does with
    ⟨a, b, h', e1, e2, k, rq⟩ | ⟨e, h', e1, e2, k⟩ | ⟨q, h', e1, e2, k⟩
  · have hb := Res.ok.inj (e2.symm.trans hv)
    subst hb
    have hlen := k.length_le
    have ho : OldOverwritten exHeap.mem h'.mem (Heap.mem (h'.set 0 (ascii "xxxxxxxxxxxxxx"))) := fun x c hx hc => by
      have hx : 1 ≤ x := List.getElem?_eq_none_iff.mp hx
      unfold Heap.mem at *
      rw [List.getElem?_set_ne (by omega), hc]
    refine ⟨a.1, a.2, h', _, e1, ho, ?_, reqv, ctxv, hv, ⟨rq.version, rq.bucketID, shows_overwritten rq.blindElement ho⟩,
      ⟨rq.client, shows_overwritten rq.input ho, rq.blind⟩⟩
    unfold Heap.read
    rw [List.getElem?_set_self (by have : exHeap.length = 1 := rfl; omega)]
    decide
  · cases e2.symm.trans hv
  · cases e2.symm.trans hv

/-- C65_mutate: two variants, in arrays 1 and 2. -/
example : ((Mutator.mutateH Mutator.dasRules ⟨0, 4, 7, 10⟩ 2).run exHeap).1 = .ok [⟨1, 0, 7, 7⟩, ⟨2, 0, 6, 6⟩] ∧
    ((Mutator.mutateH Mutator.dasRules ⟨0, 4, 7, 10⟩ 2).run exHeap).2 =
      exHeap ++ [ascii "Hunter2", ascii "hunter"] := by
  decide +kernel

/-! ## C66: the import is immune to the scanner reusing its buffer -/

/-- C66: whatever the scanner does to its own memory between lines, the file is loaded as if every line had been
an immutable value: the same counters, the same crash, and every bucket of the store shows the bytes it would
have then. -/
theorem C66_import (E : Ext) (grow : Growth) (s : Server) (metadata : GoString) (numVariants : Int)
    (includeUsernameVariant : Bool) (own : Nat → Prop) (h : Heap) (hown : ∀ a, own a → a < h.length)
    (lines : List Bytes) (r : LoadH)
    (run : ImportRun E grow s metadata numVariants includeUsernameVariant own h (fun _ => Slice.nil) 0 0 lines r) :
    match r, loadLines E s metadata numVariants includeUsernameVariant lines newKVStore 0 0 with
    | .done store h' successes failures, .done kv successes' failures' =>
      successes = successes' ∧ failures = failures' ∧ ∀ id, Shows h'.mem (store id) (kv.store id)
    | .crashed p, .crashed p' => p = p'
    | _, _ => False := by
  have i : LoadInv own h (fun _ => Slice.nil) newKVStore :=
    ⟨⟨fun _ => shows_nil h, fun _ _ _ hc => absurd rfl hc⟩, fun _ hc => absurd rfl hc⟩
  have := import_sim E grow s metadata numVariants includeUsernameVariant run newKVStore i hown
  revert this
  cases r <;> cases loadLines E s metadata numVariants includeUsernameVariant lines newKVStore 0 0 <;>
    first | exact fun h => h | exact fun h => ⟨h.1, h.2.1, fun id => (h.2.2 id).shows⟩

theorem loadLine_not_err (E : Ext) (s : Server) (metadata : Bytes) (num : Int) (inc : Bool) (line : Bytes) (kv : KV) :
    ¬ (loadLine E s metadata num inc line kv).2.IsErr := by
  unfold loadLine
  split
  · split <;> simp
  · simp

theorem run_exists (E : Ext) (grow : Growth) (s : Server) (metadata : GoString) (num : Int) (inc : Bool)
    (buf n : Nat) : ∀ (lines : List Bytes), (∀ l ∈ lines, l.length ≤ n) →
      ∀ (h : Heap) (st : StoreH) (kv : KV) (su fa : Nat), LoadInv (· = buf) h st kv →
        (∃ b, h[buf]? = some b ∧ b.length = n) →
        ∃ r, ImportRun E grow s metadata num inc (· = buf) h st su fa lines r
  | [], _, h, st, _, su, fa, _, _ => ⟨_, .done _ h st su fa⟩
  | line :: lines, hl, h, st, kv, su, fa, i, ⟨b, hb, hn⟩ => by
    have hlt : buf < h.length := (List.getElem?_eq_some_iff.mp hb).1
    have hln : line.length ≤ n := hl line (List.mem_cons_self ..)
    have hg : (h.set buf (line ++ b.drop line.length))[buf]? = some (line ++ b.drop line.length) := by
      rw [List.getElem?_set_self hlt]
    have sc : ScanStep (· = buf) h line (· = buf) (h.set buf (line ++ b.drop line.length)) ⟨buf, 0, line.length, n⟩ := by
      refine ⟨by rw [List.length_set], fun a _ ha => ?_, fun a ha => Or.inl ha, rfl, ⟨hln, Or.inr ⟨_, hg, ?_⟩⟩, ?_⟩
      · rw [List.getElem?_set_ne (Ne.symm ha)]
      · simp; omega
      · unfold Heap.read; dsimp only; rw [hg]; simp
    obtain ⟨i1, ha, ot⟩ := i.scan sc
    have sim := loadLine_sim E grow s metadata num inc i1 ⟨sc.token_valid, sc.token_shows⟩ ot
    rcases hx : loadLineH E grow s metadata num inc ⟨buf, 0, line.length, n⟩ st
      (h.set buf (line ++ b.drop line.length)) with ⟨st', r', h''⟩
    rw [hx] at sim
    obtain ⟨e, i2, f⟩ := sim
    dsimp only at e i2 f
    have hb' : ∀ a, a = buf → a < (h.set buf (line ++ b.drop line.length)).length := by
      rintro a rfl; rw [List.length_set]; exact hlt
    have li := LoadInv.line hb' ha f i2
    have hbuf : ∃ b', h''[buf]? = some b' ∧ b'.length = n := by
      refine ⟨line ++ b.drop line.length, ?_, by simp; omega⟩
      rw [f.kept buf (hb' _ rfl) fun k hk e => ha k hk e, hg]
    have ne := loadLine_not_err E s metadata num inc line kv
    rw [← e] at ne
    cases r' with
    | ok x =>
      have ih := fun su fa => run_exists E grow s metadata num inc buf n lines
        (fun l h => hl l (List.mem_cons_of_mem _ h)) h'' st' _ su fa li hbuf
      cases x with
      | true =>
        obtain ⟨r, hr⟩ := ih (su + 1) fa
        exact ⟨r, .success sc hx hr⟩
      | false =>
        obtain ⟨r, hr⟩ := ih su (fa + 1)
        exact ⟨r, .failure sc hx hr⟩
    | err e' => exact absurd ⟨e', rfl⟩ ne
    | panic p => exact ⟨_, .crash sc hx⟩

/-- C66: there are such runs for every input, in particular ones in which every line is read into one and the
same array, over the one before. -/
theorem C66_runs_exist (E : Ext) (grow : Growth) (s : Server) (metadata : GoString) (numVariants : Int)
    (includeUsernameVariant : Bool) (n : Nat) (lines : List Bytes) (hl : ∀ l ∈ lines, l.length ≤ n) :
    ∃ r, ImportRun E grow s metadata numVariants includeUsernameVariant (· = 0) [makeBytes n] (fun _ => Slice.nil)
      0 0 lines r :=
  run_exists E grow s metadata numVariants includeUsernameVariant 0 n lines hl _ _ newKVStore 0 0
    ⟨⟨fun _ => shows_nil _, fun _ _ _ hc => absurd rfl hc⟩, fun _ hc => absurd rfl hc⟩
    ⟨_, rfl, Mutator.makeBytes_length n⟩

/-- C66_import: two lines read into the same array. -/
example (grow : Growth) : ∃ store h' su fa kv,
    ImportRun ext grow server (ascii "m") 1 true (· = 0) [makeBytes 100] (fun _ => Slice.nil) 0 0
      [ascii "bob:hunter2", ascii "alice:secret"] (.done store h' su fa) ∧
    loadLines ext server (ascii "m") 1 true [ascii "bob:hunter2", ascii "alice:secret"] newKVStore 0 0 =
      .done kv 2 0 ∧ su = 2 ∧ ∀ id, Shows h'.mem (store id) (kv.store id) := by
  obtain ⟨r, hr⟩ := C66_runs_exist ext grow server (ascii "m") 1 true 100
    [ascii "bob:hunter2", ascii "alice:secret"] (by decide)
  have hc := C66_import ext grow server (ascii "m") 1 true (· = 0) [makeBytes 100]
    (by rintro a rfl; exact Nat.zero_lt_one) _ r hr
  have hl : ∃ kv, loadLines ext server (ascii "m") 1 true [ascii "bob:hunter2", ascii "alice:secret"] newKVStore 0 0 =
      .done kv 2 0 := by
    obtain ⟨kv1, h1⟩ := example_insert ⟨ascii "bob", ascii "hunter2", ascii "m", 1, true⟩ newKVStore (by decide)
      (by decide) (by decide) (by decide) (by decide)
    obtain ⟨kv2, h2⟩ := example_insert ⟨ascii "alice", ascii "secret", ascii "m", 1, true⟩ kv1 (by decide)
      (by decide) (by decide) (by decide) (by decide)
    have s1 : splitN2 (ascii "bob:hunter2") 58 = [ascii "bob", ascii "hunter2"] := by decide
    have s2 : splitN2 (ascii "alice:secret") 58 = [ascii "alice", ascii "secret"] := by decide
    refine ⟨kv2, ?_⟩
    unfold insertRecord at h1 h2
    dsimp only at h1 h2
    unfold loadLines
    rw [s1]; dsimp only
    rw [h1]; dsimp only
    unfold loadLines
    rw [s2]; dsimp only
    rw [h2]; dsimp only
    unfold loadLines
    rfl
  obtain ⟨kv, hl⟩ := hl
  rw [hl] at hc
  cases r with
  | done store h' su fa =>
    obtain ⟨h1, h2, h3⟩ := hc
    exact ⟨store, h', su, fa, kv, hr, hl, h1, h3⟩
  | crashed p => exact hc.elim

/-! ## C67: unmarshalling into a receiver -/

/-- C67: `UnmarshalBinary` never panics, writes to nothing that existed, and what it leaves in its receiver. -/
theorem C67_receiver (r : ServerResponseH) {h : Heap} {data : Slice} {b : Bytes} (hd : Shows h.mem data b) :
    Does h (r.unmarshalBinaryH data) (.ok ()) (fun M' x _ => Received h.mem b data r M' x.1 x.2) :=
  (unmarshal_sim r hd).does

theorem unmarshal_cases (r : ServerResponseH) {h : Heap} {data : Slice} {b : Bytes} (hd : Shows h.mem data b)
    {h' : Heap} {x : Res (ServerResponseH × Option Err)} (hrun : (r.unmarshalBinaryH data).run h = (x, h')) :
    ∃ r' e, x = .ok (r', e) ∧ Received h.mem b data r h'.mem r' e := by
  obtain ⟨-, a⟩ := C67_receiver r hd
  rw [hrun] at a
  cases x with
  | ok y => exact ⟨y.1, y.2, rfl, a⟩
  | err e => exact a.elim
  | panic p => exact a.elim

/-- The errors of `UnmarshalBinary`, on values. -/
theorem unmarshal_errors (b : Bytes) :
    (b.length < 4 → ServerResponse.unmarshalBinary b = .err (if b = [] then .eof else .unexpectedEOF)) ∧
    (4 ≤ b.length → b.length < 37 →
      ServerResponse.unmarshalBinary b = .err (if b.length = 4 then .eof else .elementTooShort)) := by
  constructor
  · intro h
    unfold ServerResponse.unmarshalBinary
    rw [(short4 b h).2]
    rfl
  · intro h h37
    obtain ⟨v, -, hv, -⟩ := split4 b h
    unfold ServerResponse.unmarshalBinary
    rw [hv]
    show (bufferRead (b.drop 4) 33 >>= fun x => if x.1 ≠ 33 then Res.err .elementTooShort else _) = _
    unfold bufferRead
    have hl : (b.drop 4).length = b.length - 4 := List.length_drop
    by_cases h4 : b.length = 4
    · rw [if_pos ⟨List.eq_nil_of_length_eq_zero (by omega), by decide⟩, if_pos h4]
      rfl
    · rw [if_neg (fun hc => h4 (by rw [hc.1] at hl; simp at hl; omega)), if_neg h4]
      show (if min 33 (b.drop 4).length ≠ 33 then Res.err .elementTooShort else _) = _
      rw [if_pos (by omega)]

/-- C67: it agrees with the model on values. -/
theorem C67_agrees (r : ServerResponseH) {h h' : Heap} {data : Slice} {b : Bytes} (hd : Shows h.mem data b)
    {x : Res (ServerResponseH × Option Err)} (hrun : (r.unmarshalBinaryH data).run h = (x, h')) :
    ∃ r' e, x = .ok (r', e) ∧ (e = none ↔ (ServerResponse.unmarshalBinary b).IsOk) ∧
      (∀ er, e = some er ↔ ServerResponse.unmarshalBinary b = .err er) ∧
      ∀ rv, ServerResponse.unmarshalBinary b = .ok rv → ResponseShows h'.mem r' rv := by
  obtain ⟨r', e, hx, x⟩ := unmarshal_cases r hd hrun
  refine ⟨r', e, hx, ?_⟩
  obtain ⟨-, he, ho⟩ := C20_unmarshal b
  by_cases h37 : b.length < 37
  · obtain ⟨hu1, hu2⟩ := unmarshal_errors b
    have : ∃ er, e = some er ∧ ServerResponse.unmarshalBinary b = .err er := by
      by_cases h4 : b.length < 4
      · exact ⟨_, (x.noVersion h4).1, hu1 h4⟩
      · exact ⟨_, (x.noElement (by omega) h37).1, hu2 (by omega) h37⟩
    obtain ⟨er, rfl, hev⟩ := this
    rw [hev]
    exact ⟨by simp, by simp, fun _ hc => by cases hc⟩
  · obtain ⟨h1, h2, h3, h4, h5⟩ := x.complete (by omega)
    obtain ⟨rv, hv, v1, v2, v3⟩ := ho (by omega)
    rw [h1, hv]
    refine ⟨by simp, by simp, fun rv' e => ?_⟩
    cases e
    refine ⟨UInt32.toNat_inj.mp (h2.trans v1.symm), ?_, ?_⟩
    · rw [v2]; exact h3.shows
    · rw [v3]; exact h5

/-- C67: the bucket of the receiver changes with the bytes that were unmarshalled: when they are overwritten
with `b'`, it shows the end of `b'`. -/
theorem C67_aliases (r : ServerResponseH) {h h' : Heap} {data : Slice} {b : Bytes} (hd : Shows h.mem data b)
    (hl : 37 ≤ b.length) {r' : ServerResponseH} {e : Option Err}
    (hrun : (r.unmarshalBinaryH data).run h = (.ok (r', e), h')) {h2 : Heap} {b' : Bytes}
    (h2d : Shows h2.mem data b') :
    Shows h2.mem r'.bucketContents (b'.drop 37) := by
  obtain ⟨r'', e', hx, x⟩ := unmarshal_cases r hd hrun
  cases hx
  rw [(x.complete hl).2.2.2.1]
  exact drop_shows h2d (by rw [h2d.len, ← hd.len]; exact hl)

/-- A message of 38 bytes in an array of 40, and the receiver of another message. -/
def exMessage : Heap := [makeBytes 3 ++ [1] ++ makeBytes 33 ++ [7, 0, 0]]
theorem ex_message : Shows exMessage.mem ⟨0, 0, 38, 40⟩ (makeBytes 3 ++ [1] ++ makeBytes 33 ++ [7]) := by
  unfold Shows; decide
theorem ex_short : Shows exMessage.mem ⟨0, 2, 5, 38⟩ [0, 1, 0, 0, 0] := by unfold Shows; decide

/-- C67: unmarshalling all of it gives a bucket that is its last byte, unmarshalling a short part of it fails but
changes the version. -/
example (r : ServerResponseH) :
    (∃ r' h', (r.unmarshalBinaryH ⟨0, 0, 38, 40⟩).run exMessage = (.ok (r', none), h') ∧
      r'.bucketContents = ⟨0, 37, 1, 3⟩) ∧
    (∃ r' e h', (r.unmarshalBinaryH ⟨0, 2, 5, 38⟩).run exMessage = (.ok (r', some e), h') ∧ r'.version = 65536) := by
  constructor
  · rcases hr : (r.unmarshalBinaryH ⟨0, 0, 38, 40⟩).run exMessage with ⟨x, h'⟩
    obtain ⟨r', e, hx, x⟩ := unmarshal_cases r ex_message hr
    have c := x.complete (by decide)
    rw [hx, c.1]
    exact ⟨r', h', rfl, c.2.2.2.1⟩
  · rcases hr : (r.unmarshalBinaryH ⟨0, 2, 5, 38⟩).run exMessage with ⟨x, h'⟩
    obtain ⟨r', e, hx, x⟩ := unmarshal_cases r ex_short hr
    have d := x.noElement (by decide) (by decide)
    cases e with
    | none => exact nomatch d.1
    | some e => exact ⟨r', e, h', by rw [hx], UInt32.toNat_inj.mp (d.2.1.trans (by decide))⟩

end Migp.Props
