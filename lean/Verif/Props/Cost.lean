import Verif.Lemmas.CostOps
import Verif.Spec.Cost
import Verif.Props.Main
import Verif.Props.Witness2
/-!
# C80: what calls cost, and what their duration can depend on
-/
namespace Migp.Props
open Json Bufio Http Spec

section
variable {E : Ext} {cfg : ServerConfig} {s : Server} {c : Client}

/-! ## The traced functions are the functions -/

/-- C80: the functions with their calls give the same results as the functions without, for every input. -/
theorem C80_same_results (E : Ext) (s : Server) (c : Client) (ctx : ClientRequestContext) (kv : KV) (get : Getter) (u p m : Bytes)
    (n : Int) (w : Bool) (r : ZMod c.suite.q) (req : ClientRequest) (resp : ServerResponse) (stale : Nat → Nat → UInt8)
    (body : Option Bytes) (config : Config) (post : Bytes → Transport) (rand : (S : Suite) → ZMod S.q) (lines : List Bytes)
    (k l : Nat) :
    (c.requestT E u p r).out = c.request E u p r ∧
    (ctx.finalizeT E resp).2 = ctx.finalize E resp ∧
    (s.handleRequestT req get).out = s.handleRequest req get ∧
    (insertT E s u p m n w kv).2 = insert E s u p m n w kv ∧
    (handleEvaluateT s kv stale body).out = handleEvaluate s kv stale body ∧
    (QueryT E config post u p rand).2 = Query E config post u p rand ∧
    (loadLinesT E s m n w lines kv k l).2 = loadLines E s m n w lines kv k l :=
  ⟨requestT_out E c u p r, finalizeT_out E ctx resp, handleRequestT_out s req get, insertT_out E s u p m n w kv,
    handleEvaluateT_out s kv stale body, QueryT_out E config post u p rand, loadLinesT_out E s m n w lines kv k l⟩

/-! ## The server -/

theorem version_iff (v : UInt32) (w : UInt16) : UInt16.ofNat v.toNat ≠ w ↔ v.toNat % 65536 ≠ w.toNat := by
  rw [ne_eq, ne_eq, ← UInt16.toNat_inj, UInt16.toNat_ofNat']

/-- C80: what `HandleRequest` does: nothing for a wrong version; otherwise one OPRF evaluation, and then one read of the
store if the evaluation succeeds and the identifier is hexadecimal. No slow hash, no decryption, no other read — whatever the
request. -/
theorem C80_server_request (s : Server) (req : ClientRequest) (kv : Getter) :
    (req.version.toNat % 65536 ≠ s.version.toNat → (s.handleRequestT req kv).ops = []) ∧
    (req.version.toNat % 65536 = s.version.toNat →
      (¬ (Spec.tweak s.suite s.privateKey ≠ 0 ∧ s.suite.de req.blindElement ≠ none ∧ IsHexString req.bucketID) →
        (s.handleRequestT req kv).ops = [.evaluate]) ∧
      (Spec.tweak s.suite s.privateKey ≠ 0 → s.suite.de req.blindElement ≠ none → IsHexString req.bucketID →
        (s.handleRequestT req kv).ops = [.evaluate, .get req.bucketID])) := by
  refine ⟨fun h => ?_, fun h => ⟨fun hn => ?_, fun ht hd hx => ?_⟩⟩
  · unfold Server.handleRequestT
    rw [if_pos ((version_iff _ _).mpr h)]
  · unfold Server.handleRequestT
    rw [if_neg (fun h' => (version_iff _ _).mp h' h)]
    cases hev : s.suite.evaluate s.privateKey req.blindElement OprfInfo with
    | err e => exact Tr.ops_bind_err rfl
    | panic q => exact Tr.ops_bind_panic rfl
    | ok ev =>
      refine (Tr.ops_bind_ok (a := ev) rfl).trans ?_
      have ht : Spec.tweak s.suite s.privateKey ≠ 0 := by
        intro ht
        rw [evaluate_zero _ _ _ ht] at hev
        cases hev
      have hd : s.suite.de req.blindElement ≠ none := by
        intro hd
        rw [evaluate_none _ _ _ ht hd] at hev
        cases hev
      have hx : hexDecode req.bucketID = none := by
        cases hh : hexDecode req.bucketID with
        | none => rfl
        | some b => exact absurd ⟨ht, hd, (hexDecode_isSome_iff _).mp (by rw [hh]; rfl)⟩ hn
      rw [hx]
      rfl
  · unfold Server.handleRequestT
    rw [if_neg (fun h' => (version_iff _ _).mp h' h)]
    obtain ⟨g, hg⟩ := Option.ne_none_iff_exists'.mp hd
    refine (Tr.ops_bind_ok (a := _) (evaluate_ok _ _ _ g ht hg)).trans ?_
    obtain ⟨b, hb⟩ := Option.isSome_iff_exists.mp ((hexDecode_isSome_iff _).mpr hx)
    rw [hb]
    dsimp only
    cases hkv : kv req.bucketID with
    | ok a => rw [Tr.ops_bind_ok (a := a) rfl]; rfl
    | err e => rw [Tr.ops_bind_err (e := e) rfl]; rfl
    | panic q => rw [Tr.ops_bind_panic (p := q) rfl]; rfl

/-- C80: whatever is posted to the server, it makes at most one OPRF evaluation and one read of the store. -/
theorem C80_http_request (s : Server) (kv : KV) (stale : Nat → Nat → UInt8) (body : Option Bytes) :
    (handleEvaluateT s kv stale body).ops = [] ∨ (handleEvaluateT s kv stale body).ops = [.evaluate] ∨
      ∃ id, IsHexString id ∧ (handleEvaluateT s kv stale body).ops = [.evaluate, .get id] := by
  cases body with
  | none => exact Or.inl rfl
  | some body =>
    have e : (handleEvaluateT s kv stale (some body)).ops =
        (s.handleRequestT (ClientRequest.unmarshalJSON stale body ClientRequest.zero).1 kv.get).ops := by
      unfold handleEvaluateT
      dsimp only
      split
      · rfl
      · rfl
      · split <;> rfl
    rw [e]
    generalize (ClientRequest.unmarshalJSON stale body ClientRequest.zero).1 = req
    obtain ⟨h1, h2⟩ := C80_server_request s req kv.get
    by_cases hv : req.version.toNat % 65536 = s.version.toNat
    · obtain ⟨h3, h4⟩ := h2 hv
      by_cases hg : Spec.tweak s.suite s.privateKey ≠ 0 ∧ s.suite.de req.blindElement ≠ none ∧ IsHexString req.bucketID
      · exact .inr (.inr ⟨_, hg.2.2, h4 hg.1 hg.2.1 hg.2.2⟩)
      · exact .inr (.inl (h3 hg))
    · exact .inl (h1 hv)

/-- C80: what the server does for a client's own request depends on nothing but the bucket: one evaluation and one read of
the bucket, the same for every credential and blind with a username of that bucket. -/
theorem C80_server_uniform (hc : NewClient E cfg.toConfig = .ok c) (hs : NewServer E cfg = .ok s)
    (ht : Spec.tweak s.suite s.privateKey ≠ 0) (u p : Bytes) (r : ZMod c.suite.q) (req : ClientRequest)
    (ctx : ClientRequestContext) (h : c.request E u p r = .ok (req, ctx)) (kv : Getter) :
    ∃ id, s.bucketID E u = .ok id ∧ (s.handleRequestT req kv).ops = [.evaluate, .get (BucketIDToHex id)] := by
  have hnp := (C02_request_panics_iff cfg.toConfig c hc u p r).1
  rw [h] at hnp
  simp only [Res.isPanic_ok, false_iff] at hnp
  obtain ⟨id, h1, -, h2⟩ := request_ok cfg.toConfig c hc u p (by omega) (by omega) (by omega) (by omega) r
  refine ⟨id, by rw [← C14_same_bucket cfg c s hc hs u]; exact h1, ?_⟩
  have h2 := Res.ok.inj (h.symm.trans h2)
  have hreq := congrArg Prod.fst h2
  dsimp only at hreq
  subst hreq
  have hsuite := suite_eq hc hs
  refine ((C80_server_request s _ kv).2 ?_).2 ht ?_ ?_
  · have : s.version = cfg.version := by
      obtain ⟨slow', S', _, _, _, _, _, rfl⟩ := newServer_ok hs; rfl
    have h3 := cfg.version.toNat_lt
    rw [this]
    show (UInt32.ofNat cfg.version.toNat).toNat % 65536 = _
    rw [UInt32.toNat_ofNat']
    omega
  · have := c.suite.de_ser (r * c.suite.hashToElement (Spec.oprfInput E cfg.slowHasherID u p))
    intro hn
    dsimp only at hn
    rw [← hsuite] at hn
    exact absurd (this.symm.trans hn) (by simp)
  · rw [← hexDecode_isSome_iff]
    unfold BucketIDToHex
    rw [hexDecode_hexEncode]; rfl

/-! ## The client -/

theorem slowHashT_ops {id : UInt16} {h : SlowHasher} (e : NewSlowHasher id = .ok h) (x : Bytes) :
    (h.hashT E x).ops = if id = 0 then [] else [.scrypt x.length] := by
  rcases newSlowHasher_ok e with ⟨rfl, rfl⟩ | ⟨rfl, rfl⟩ <;> rfl

theorem credentialW_length (u p : Bytes) : (credentialW u p).length = 4 + u.length + p.length := by
  simp [credentialW, len16w, len16]
  omega

theorem oprfInput_length (E : Ext) (id : UInt16) (u p : Bytes) : (oprfInput E id u p).length = inputLength id u p := by
  unfold oprfInput slowHash inputLength
  split
  · exact credentialW_length u p
  · exact E.scrypt_len _ _ _ _ _ _

theorem bucketHashT_ops (u : Bytes) (h : u.length ≤ 65536) :
    (NewSHA256BucketHasher.hashT E u).ops = [.bucketHash u.length] := by
  unfold NewSHA256BucketHasher BucketHasher.hashT
  dsimp only
  rw [if_neg]
  rintro (h' | h')
  · exact absurd h' (by decide)
  · omega

/-- C80: what `Request` does when it succeeds: the slow hash, the blinding, the hash of the username — on inputs whose
lengths depend on nothing but the lengths of the username and password. -/
theorem C80_request_ops {cfg : Config} (hc : NewClient E cfg = .ok c) (u p : Bytes) (r : ZMod c.suite.q)
    (h : ¬ (c.request E u p r).IsPanic) : (c.requestT E u p r).ops = requestOps cfg.slowHasherID u p := by
  have hnp := (C02_request_panics_iff cfg c hc u p r).1
  rw [iff_false_left h] at hnp
  obtain ⟨id, h1, -, h2⟩ := request_ok cfg c hc u p (by omega) (by omega) (by omega) (by omega) r
  obtain ⟨slow, S, _, _, hslow, hS, rfl⟩ := newClient_ok hc
  unfold Client.requestT
  refine (Tr.ops_bind_ok (a := credentialW u p) (serialize_eq u p (by omega) (by omega))).trans ?_
  refine (congrArg _ (Tr.ops_bind_ok (a := oprfInput E cfg.slowHasherID u p)
    ((slowHashT_out E _ _).trans (slowHash_ok E hslow _)))).trans ?_
  rw [slowHashT_ops hslow]
  refine (congrArg _ (congrArg _ (Tr.ops_bind_ok (a := _) rfl))).trans ?_
  refine (congrArg _ (congrArg _ (congrArg _ (Tr.ops_bind_ok (a := id) ((client_bucketIDT_out E _ u).trans h1))))).trans ?_
  have hb : (Client.bucketIDT E ⟨cfg.version, cfg.bucketIDBitSize, NewSHA256BucketHasher, .hkdfSHA256, slow, S, cfg.oprfSuite⟩ u).ops =
      [.bucketHash u.length] := by
    unfold Client.bucketIDT
    dsimp only
    rw [show ([.bucketHash u.length] : List Op) = [.bucketHash u.length] ++ [] from rfl, ← bucketHashT_ops (E := E) u (by omega)]
    cases hh : (NewSHA256BucketHasher.hashT E u).out with
    | ok a => rw [Tr.ops_bind_ok hh]; rfl
    | err e => rw [Tr.ops_bind_err hh, List.append_nil]
    | panic q => rw [Tr.ops_bind_panic hh, List.append_nil]
  rw [hb, credentialW_length, oprfInput_length]
  unfold requestOps slowOps
  rw [Tr.ops_pure, Tr.ops_liftT]
  rfl

/-- A search in a bucket of any contents: a header pad for each entry looked at, then at most one pad for a body. -/
theorem search_bound (E : Ext) (enc : BucketEncryptor) (secret contents : Bytes) :
    ∃ k last, (finalizeLoopT E enc secret contents 0).1 = List.replicate k (.pad 21) ++ last ∧
      ((last = [] ∧ 25 * k ≤ contents.length) ∨ ∃ n, last = [.pad n] ∧ 1 ≤ k ∧ 25 * k + n ≤ contents.length) := by
  induction hn : contents.length using Nat.strongRecOn generalizing contents with
  | _ n ih =>
    by_cases hend : contents.length < 25
    · exact ⟨0, [], finalizeLoopT_end E enc secret contents 0 (by omega), .inl ⟨rfl, by omega⟩⟩
    · obtain ⟨tag, f, len, rest, ht, hr⟩ := split_header contents (by omega)
      have hstep := finalizeLoopT_step E enc secret [] tag f len rest ht
      have hlen : contents.length = 25 + rest.length := by simp [hr, ht]; omega
      rw [List.nil_append, ← hr, List.length_nil] at hstep
      rw [hstep]
      by_cases hp : rest.length < len.toNat
      · rw [if_pos hp]
        exact ⟨1, [], rfl, .inl ⟨rfl, by omega⟩⟩
      · rw [if_neg hp]
        by_cases hk : Spec.keyTag E.sha256 secret = tag
        · rw [if_pos hk]
          exact ⟨1, [.pad len.toNat], rfl, .inr ⟨_, rfl, by omega, by omega⟩⟩
        · rw [if_neg hk]
          have e : contents = (tag ++ ([f] ++ (be32 len ++ rest.take len.toNat))) ++ rest.drop len.toNat := by
            rw [hr]
            simp
          have hl : 0 + 25 + len.toNat = (tag ++ ([f] ++ (be32 len ++ rest.take len.toNat))).length + 0 := by
            simp only [List.length_append, List.length_cons, List.length_nil, List.length_take, be32_length, ht]
            omega
          have hs : (finalizeLoopT E enc secret contents (0 + 25 + len.toNat)).1 =
              (finalizeLoopT E enc secret (rest.drop len.toNat) 0).1 := by
            rw [hl]
            conv_lhs => rw [e]
            exact finalizeLoopT_shift E enc secret _ _ 0
          have hd : (rest.drop len.toNat).length ≤ rest.length := by rw [List.length_drop]; omega
          obtain ⟨k, last, h1, h2⟩ := ih _ (by omega) (rest.drop len.toNat) rfl
          rw [hs, h1]
          refine ⟨k + 1, last, by rw [List.replicate_succ]; rfl, ?_⟩
          rcases h2 with ⟨h2, h3⟩ | ⟨m, h2, h3, h4⟩
          · exact .inl ⟨h2, by omega⟩
          · exact .inr ⟨m, h2, by omega, by omega⟩

/-- C80: what `Finalize` does, whatever the response of the server: nothing for a wrong version; otherwise one unblinding,
then at most one pad of 21 bytes for every 25 bytes of the bucket and at most one further pad, not longer than what is left of the
bucket. In particular the client's work and memory are bounded by the size of the response, and no slow hash is computed. -/
theorem C80_finalize_bound (E : Ext) (ctx : ClientRequestContext) (resp : ServerResponse) :
    (ctx.finalizeT E resp).1 = [] ∨
    ∃ k last, (ctx.finalizeT E resp).1 = .unblind :: (List.replicate k (.pad 21) ++ last) ∧
      ((last = [] ∧ 25 * k ≤ resp.bucketContents.length) ∨
        ∃ n, last = [.pad n] ∧ 1 ≤ k ∧ 25 * k + n ≤ resp.bucketContents.length) := by
  unfold ClientRequestContext.finalizeT
  split
  · exact .inl rfl
  · right
    split
    · exact ⟨0, [], rfl, .inl ⟨rfl, by omega⟩⟩
    · exact ⟨0, [], rfl, .inl ⟨rfl, by omega⟩⟩
    · obtain ⟨k, last, h1, h2⟩ := search_bound E ctx.client.bucketEncryptor ‹Bytes› resp.bucketContents
      exact ⟨k, last, by dsimp only; rw [h1], h2⟩

/-- C80: what `Query` does against any network: the calls of `Request`, and then those of `Finalize` on a response no longer
than the body received. -/
theorem C80_query (E : Ext) (cfg : Config) (post : Bytes → Transport) (u p : Bytes) (rand : (S : Suite) → ZMod S.q)
    (hok : ∀ q, Query E cfg post u p rand ≠ .panic q) :
    (QueryT E cfg post u p rand).1 = [] ∨ (QueryT E cfg post u p rand).1 = requestOps cfg.slowHasherID u p ∨
    ∃ c req ctx body k last, NewClient E cfg = .ok c ∧ c.request E u p (rand c.suite) = .ok (req, ctx) ∧
      post req.marshalJSON = .reply 200 (some body) ∧
      (QueryT E cfg post u p rand).1 =
        requestOps cfg.slowHasherID u p ++ .unblind :: (List.replicate k (.pad 21) ++ last) ∧
      ((last = [] ∧ 25 * k ≤ body.length) ∨ ∃ n, last = [.pad n] ∧ 1 ≤ k ∧ 25 * k + n ≤ body.length) := by
  have hq := QueryT_out E cfg post u p rand
  unfold QueryT at hq ⊢
  cases hc : NewClient E cfg with
  | panic q => exact .inl rfl
  | err e => exact .inl rfl
  | ok c =>
    rw [hc] at hq
    dsimp only at hq ⊢
    have hr : ¬ (c.request E u p (rand c.suite)).IsPanic := by
      rintro ⟨q, h⟩
      rw [← requestT_out] at h
      rw [h] at hq
      exact hok q hq.symm
    rw [C80_request_ops hc u p _ hr] at hq ⊢
    rw [requestT_out] at hq ⊢
    cases hreq : c.request E u p (rand c.suite) with
    | panic q => exact .inr (.inl rfl)
    | err e => exact .inr (.inl rfl)
    | ok x =>
      obtain ⟨req, ctx⟩ := x
      dsimp only
      cases hp : post req.marshalJSON with
      | failed => exact .inr (.inl rfl)
      | reply status body =>
        dsimp only
        by_cases h200 : status = 200
        · rw [if_neg (by simpa using h200)]
          subst h200
          cases body with
          | none => exact .inr (.inl rfl)
          | some body =>
            dsimp only
            cases hu : ServerResponse.unmarshalBinary body with
            | panic q => exact .inr (.inl rfl)
            | err e => exact .inr (.inl rfl)
            | ok resp =>
              dsimp only
              have hlen : resp.bucketContents.length ≤ body.length := by
                by_cases h37 : 37 ≤ body.length
                · obtain ⟨r', h1, -, -, h2⟩ := (C20_unmarshal body).2.2 h37
                  rw [Res.ok.inj (hu.symm.trans h1), h2, List.length_drop]
                  omega
                · obtain ⟨e, h1⟩ := (C20_unmarshal body).2.1.mpr (by omega)
                  exact absurd (hu.symm.trans h1) nofun
              rcases C80_finalize_bound E ctx resp with h | ⟨k, last, h1, h2⟩
              · exact .inr (.inl (by rw [h, List.append_nil]))
              · refine .inr (.inr ⟨c, req, ctx, body, k, last, rfl, hreq, hp, by rw [h1], ?_⟩)
                rcases h2 with ⟨h2, h3⟩ | ⟨m, h2, h3, h4⟩
                · exact .inl ⟨h2, by omega⟩
                · exact .inr ⟨m, h2, by omega, by omega⟩
        · rw [if_pos (by simpa using h200)]
          exact .inr (.inl rfl)

/-- C80: how much the client does on a bucket filled by inserts, when no key tags collide: one unblinding, one pad of 21
bytes for each entry of the bucket that comes before the first one of the queried credential, and for that one a pad of 21 bytes and
one of the length of its metadata; without such an entry, one pad for each entry of the bucket. So the time a query takes
tells whether the credential was found, and where in the bucket. -/
theorem C80_finalize_exact (hc : NewClient E cfg.toConfig = .ok c) (hs : NewServer E cfg = .ok s)
    {kv : KV} {db : List Stored} (h : History E s kv db) (u p : Bytes) (r : ZMod c.suite.q) (hr : r ≠ 0)
    (hno : ∀ x ∈ db, ¬ TagCollision E s x u p) (req : ClientRequest) (ctx : ClientRequestContext)
    (hreq : c.request E u p r = .ok (req, ctx)) (resp : ServerResponse) (hresp : s.handleRequest req kv.get = .ok resp) :
    (ctx.finalizeT E resp).1 =
      .unblind :: (((db.filter fun x => decide (s.bucketID E x.username = s.bucketID E u)).takeWhile
          fun x => decide (¬ (x.username = u ∧ x.password = p))).map fun _ => Op.pad 21) ++
        match lookup db u p with
        | none => []
        | some x => [.pad 21, .pad x.metadata.length] := by
  have hnp := (C02_request_panics_iff cfg.toConfig c hc u p r).1
  rw [hreq] at hnp
  simp only [Res.isPanic_ok, false_iff] at hnp
  obtain ⟨id, h1, -, h2⟩ := request_ok cfg.toConfig c hc u p (by omega) (by omega) (by omega) (by omega) r
  have hid : s.bucketID E u = .ok id := by rw [← C14_same_bucket cfg c s hc hs u]; exact h1
  obtain ⟨key, hk1, hk2⟩ := C15_blinded_eq_direct cfg c s hc hs u p r hr req ctx hreq kv.get resp hresp
  obtain ⟨hv, ht, -, g, contents, -, hkv, rfl⟩ := (C17_ok_iff _ _ _ _).mp hresp
  have hkey : key = entryKey E cfg s u p := Res.ok.inj (hk1.symm.trans (deriveKey_ok hs u p (by omega) (by omega) ht))
  have hp2 := Res.ok.inj (hreq.symm.trans h2)
  have hbid : req.bucketID = BucketIDToHex id := congrArg (fun x => x.1.bucketID) hp2
  have hcv : ctx.client.version = s.version := by
    rw [show ctx.client = c from congrArg (fun x => x.2.client) hp2]
    obtain ⟨slow, S, _, _, _, _, rfl⟩ := newClient_ok hc
    obtain ⟨slow', S', _, _, _, _, _, rfl⟩ := newServer_ok hs
    rfl
  have hcont : contents = kv.store (BucketIDToHex id) := by
    rw [hbid] at hkv
    exact (Res.ok.inj hkv).symm
  unfold ClientRequestContext.finalizeT
  dsimp only at hk2 ⊢
  rw [if_neg (by rw [version_iff, hcv]; exact not_not.mpr hv), hk2]
  dsimp only
  obtain ⟨g1, g2, -⟩ := history_invariant hs h
  have hwf : ∀ e ∈ (db.filter (inBucket E s (BucketIDToHex id))).map (storedRaw E cfg s), e.WF := by
    intro e he
    obtain ⟨x, hx, rfl⟩ := List.mem_map.mp he
    exact storedRaw_wf E cfg s x (g2 x (List.mem_filter.mp hx).1).1.2.2.2
  rw [hcont, g1, finalizeLoopT_bucket E _ key _ hwf, hkey]
  have hf : db.filter (inBucket E s (BucketIDToHex id)) =
      db.filter fun x => decide (s.bucketID E x.username = s.bucketID E u) := by
    apply List.filter_congr
    intro x hx
    obtain ⟨-, id', hid'⟩ := g2 x hx
    rw [inBucket_ok hid', hid', hid]
    apply Bool.eq_iff_iff.mpr
    simp only [beq_iff_eq, decide_eq_true_eq]
    exact ⟨fun e => by rw [BucketIDToHex_inj e], fun e => by rw [Res.ok.inj e]⟩
  have hcond : ∀ x ∈ db.filter (inBucket E s (BucketIDToHex id)),
      ((storedRaw E cfg s x).tag = Spec.keyTag E.sha256 (entryKey E cfg s u p) ↔ x.username = u ∧ x.password = p) := by
    intro x hx
    obtain ⟨hx, hb⟩ := List.mem_filter.mp hx
    obtain ⟨hfit, id', hid'⟩ := g2 x hx
    rw [inBucket_ok hid'] at hb
    simp only [beq_iff_eq] at hb
    constructor
    · intro he
      by_contra hne
      exact hno x hx ⟨hne, by rw [hid', hid, BucketIDToHex_inj hb], _, _,
        deriveKey_ok hs _ _ hfit.2.1 hfit.2.2.1 ht, deriveKey_ok hs u p (by omega) (by omega) ht, he⟩
    · rintro ⟨e1, e2⟩
      unfold storedRaw
      rw [e1, e2]
  have hlook : lookup db u p = (db.filter (inBucket E s (BucketIDToHex id))).find? (fun x => x.username = u ∧ x.password = p) := by
    unfold lookup
    rw [List.find?_filter]
    apply find_congr
    intro x hx
    apply Bool.eq_iff_iff.mpr
    simp only [decide_eq_true_eq]
    refine ⟨fun e => ⟨?_, e⟩, fun e => e.2⟩
    rw [inBucket_ok (by rw [e.1]; exact hid)]
    simp
  have hmd : ∀ x ∈ db.filter (inBucket E s (BucketIDToHex id)), (storedRaw E cfg s x).body.length = x.metadata.length :=
    fun x hx => storedRaw_body_length E cfg s x (g2 x (List.mem_filter.mp hx).1).1.2.2.2
  rw [hlook, ← hf]
  generalize db.filter (inBucket E s (BucketIDToHex id)) = l at hcond hmd
  clear hf hlook hwf
  rw [List.cons_append]
  congr 1
  induction l with
  | nil => rfl
  | cons x l ih =>
    have ih := ih (fun y hy => hcond y (List.mem_cons_of_mem _ hy)) (fun y hy => hmd y (List.mem_cons_of_mem _ hy))
    have hx := hcond x List.mem_cons_self
    have hm := hmd x List.mem_cons_self
    rw [List.map_cons]
    by_cases he : x.username = u ∧ x.password = p
    · have ht := hx.mpr he
      rw [List.takeWhile_cons_of_neg (p := fun e : RawEntry => decide (e.tag ≠ Spec.keyTag E.sha256 (entryKey E cfg s u p))) (by simpa using ht),
        List.takeWhile_cons_of_neg (p := fun x : Stored => decide (¬ (x.username = u ∧ x.password = p))) (by simpa using he)]
      simp [Spec.firstMatch, ht, he, hm]
    · have ht := mt hx.mp he
      rw [List.takeWhile_cons_of_pos (p := fun e : RawEntry => decide (e.tag ≠ Spec.keyTag E.sha256 (entryKey E cfg s u p))) (by simpa using ht),
        List.takeWhile_cons_of_pos (p := fun x : Stored => decide (¬ (x.username = u ∧ x.password = p))) (decide_eq_true he),
        List.map_cons, List.map_cons, List.cons_append, List.cons_append]
      congr 1
      have e1 : Spec.firstMatch E.sha256 (entryKey E cfg s u p) (storedRaw E cfg s x :: l.map (storedRaw E cfg s)) =
          Spec.firstMatch E.sha256 (entryKey E cfg s u p) (l.map (storedRaw E cfg s)) := by
        unfold Spec.firstMatch
        rw [List.find?_cons_of_neg (by simpa using ht)]
      rw [e1, List.find?_cons_of_neg (by simpa using he)]
      exact ih

/-! ## Inserting -/

/-- Making one entry. -/
theorem entryOps (hs : NewServer E cfg = .ok s) (u p : Bytes) (flag : MetadataType) (m : Bytes) (hf : flag.toNat ≤ 3)
    (hu : u.length ≤ 65536) (hp : p.length ≤ 65536) :
    (s.encryptBucketEntryT E u p flag m).ops =
      slowOps cfg.slowHasherID u p ++ .fullEvaluate (inputLength cfg.slowHasherID u p) ::
        (if Spec.tweak s.suite s.privateKey = 0 then [] else [.pad 21, .pad m.length]) := by
  have hk : (s.deriveBucketEntryKeyT E u p).ops =
      slowOps cfg.slowHasherID u p ++ [.fullEvaluate (inputLength cfg.slowHasherID u p)] := by
    obtain ⟨slow, S, _, _, hslow, hS, _, rfl⟩ := newServer_ok hs
    unfold Server.deriveBucketEntryKeyT
    refine (Tr.ops_bind_ok (a := credentialW u p) (serialize_eq u p hu hp)).trans ?_
    refine (congrArg _ (Tr.ops_bind_ok (a := oprfInput E cfg.slowHasherID u p)
      ((slowHashT_out E _ _).trans (slowHash_ok E hslow _)))).trans ?_
    rw [slowHashT_ops hslow, credentialW_length, oprfInput_length]
    rfl
  unfold Server.encryptBucketEntryT
  rw [if_neg (by have := (valid_iff flag).mpr hf; simpa using this)]
  by_cases ht : Spec.tweak s.suite s.privateKey = 0
  · rw [if_pos ht, Tr.ops_bind_err ((deriveBucketEntryKeyT_out E s u p).trans (deriveKey_zero hs u p hu hp ht)), hk]
  · rw [if_neg ht, Tr.ops_bind_ok ((deriveBucketEntryKeyT_out E s u p).trans (deriveKey_ok hs u p hu hp ht)), hk, encryptT_ops,
      List.append_assoc]
    rfl

theorem storeOps_entry (hs : NewServer E cfg = .ok s) (u p : Bytes) (flag : MetadataType) (m : Bytes) (hf : flag.toNat ≤ 3)
    (hu : u.length ≤ 65536) (hp : p.length ≤ 65536) (ht : Spec.tweak s.suite s.privateKey ≠ 0) (id : GoString) :
    (s.encryptBucketEntryT E u p flag m).ops ++ [.append id (25 + m.length)] =
      storeOps cfg.slowHasherID id ⟨u, p, flag, m⟩ := by
  rw [entryOps hs u p flag m hf hu hp, if_neg ht]
  unfold storeOps
  simp

theorem entryParts_length' (key : Bytes) (flag : MetadataType) (m : Bytes) (hm : m.length ≤ 8160) :
    (entryParts E key flag m).length = 25 + m.length := by
  unfold entryParts
  simp only [List.length_append, List.length_cons, List.length_nil, be32_length, keyTag_length, xor_length, bodyPad_length E _ _ hm]
  omega

theorem server_bucketIDT_ops (hs : NewServer E cfg = .ok s) (u : Bytes) (hu : u.length ≤ 65536) :
    (s.bucketIDT E u).ops = [.bucketHash u.length] := by
  obtain ⟨slow, S, _, _, hslow, hS, _, rfl⟩ := newServer_ok hs
  unfold Server.bucketIDT
  dsimp only
  rw [show ([.bucketHash u.length] : List Op) = [.bucketHash u.length] ++ [] from rfl, ← bucketHashT_ops (E := E) u hu]
  cases hh : (NewSHA256BucketHasher.hashT E u).out with
  | ok a => rw [Tr.ops_bind_ok hh]; rfl
  | err e => rw [Tr.ops_bind_err hh, List.append_nil]
  | panic q => rw [Tr.ops_bind_panic hh, List.append_nil]

theorem insertVariantsT_ops (hs : NewServer E cfg = .ok s) (u m : Bytes) (id : GoString) (vs : List Bytes) (kv : KV)
    (hu : u.length ≤ 65536) (hv : ∀ v ∈ vs, v.length ≤ 65536) (ht : Spec.tweak s.suite s.privateKey ≠ 0) (hm : m.length ≤ 8160) :
    (insertVariantsT E s u m id vs kv).1 = vs.flatMap fun v => storeOps cfg.slowHasherID id ⟨u, v, 2, m⟩ := by
  induction vs generalizing kv with
  | nil => rfl
  | cons v vs ih =>
    have he := (encryptBucketEntryT_out E s u v MetadataSimilarPassword m).trans
      (encryptBucketEntry_ok hs u v MetadataSimilarPassword m (by decide) hu (hv v (by simp)) ht hm)
    rw [insertVariantsT]
    dsimp only
    rw [he]
    dsimp only
    rw [ih _ (fun x hx => hv x (List.mem_cons_of_mem _ hx)), entryParts_length' _ _ _ hm, List.flatMap_cons,
      ← storeOps_entry hs u v 2 m (by decide) hu (hv v (by simp)) ht id, List.append_assoc]
    rfl

/-- C80: a successful insert hashes the username once and then, for each credential it stores, in order, makes one slow hash,
one OPRF evaluation, two pads and one append. -/
theorem C80_insert (hs : NewServer E cfg = .ok s) (rec : Record) (kv kv' : KV) (h : insertRecord E s rec kv = (kv', .ok ()))
    (vs : List Bytes) (hvs : Mutator.mutate Mutator.dasRules rec.password rec.numVariants = .ok vs) :
    ∃ id, s.bucketID E rec.username = .ok id ∧
      (insertT E s rec.username rec.password rec.metadata rec.numVariants rec.withUsername kv).1 =
        .bucketHash rec.username.length :: (rec.stored vs).flatMap (storeOps cfg.slowHasherID (BucketIDToHex id)) := by
  have ho := insertRecord_outcome hs rec kv
  rw [h] at ho
  cases ho with
  | done id vs' hid hst =>
    obtain ⟨hu, hp, hm, h0, h32, ht, hvs', hv⟩ := hst
    obtain rfl : vs = vs' := Res.ok.inj (hvs.symm.trans hvs')
    refine ⟨id, hid, ?_⟩
    have he := (encryptBucketEntryT_out E s rec.username rec.password MetadataBreachedPassword rec.metadata).trans
      (encryptBucketEntry_ok hs _ _ MetadataBreachedPassword _ (by decide) hu hp ht hm)
    unfold insertT
    dsimp only
    rw [server_bucketIDT_out, hid]
    dsimp only
    rw [he, server_bucketIDT_ops hs _ hu]
    dsimp only
    rw [hvs]
    dsimp only
    rw [insertVariantsT_out, insertVariants_ok hs _ _ _ _ _ hu hv ht hm, insertVariantsT_ops hs _ _ _ _ _ hu hv ht hm,
      entryParts_length' _ _ _ hm, storeOps_entry hs _ _ MetadataBreachedPassword _ (by decide) hu hp ht]
    dsimp only
    unfold Record.stored
    rw [List.flatMap_append, List.flatMap_append, List.flatMap_map, List.flatMap_singleton]
    have hun : (insertUsernameT E s rec.username rec.metadata (BucketIDToHex id) rec.withUsername
        ((kv.append (BucketIDToHex id) (entryParts E (entryKey E cfg s rec.username rec.password) MetadataBreachedPassword
          rec.metadata)).append (BucketIDToHex id)
          (vs.map (fun v => storedBytes E cfg s ⟨rec.username, v, 2, rec.metadata⟩)).flatten)).1 =
        (if rec.withUsername then [(⟨rec.username, [], 3, rec.metadata⟩ : Stored)] else []).flatMap
          (storeOps cfg.slowHasherID (BucketIDToHex id)) := by
      unfold insertUsernameT
      by_cases hw : rec.withUsername = true
      · rw [if_pos hw, if_pos hw, List.flatMap_singleton]
        dsimp only
        rw [encryptBucketEntryT_out, encryptBucketEntry_ok hs _ _ MetadataBreachedUsername _ (by decide) hu (by simp) ht hm]
        dsimp only
        rw [entryParts_length' _ _ _ hm, storeOps_entry hs _ _ MetadataBreachedUsername _ (by decide) hu (by simp) ht]
        rfl
      · rw [if_neg hw, if_neg hw]; rfl
    rw [hun, List.append_assoc, List.append_assoc, List.append_assoc]
    rfl

/-- C80: an insert that returns an error has made one hash of the username, one slow hash and one OPRF evaluation, asked for
pads only if the evaluation succeeded, and appended nothing. -/
theorem C80_refused (hs : NewServer E cfg = .ok s) (rec : Record) (kv kv' : KV) (e : Err)
    (h : insertRecord E s rec kv = (kv', .err e)) :
    (insertT E s rec.username rec.password rec.metadata rec.numVariants rec.withUsername kv).1 =
      .bucketHash rec.username.length :: slowOps cfg.slowHasherID rec.username rec.password ++
        .fullEvaluate (inputLength cfg.slowHasherID rec.username rec.password) ::
          (if Spec.tweak s.suite s.privateKey = 0 then [] else [.pad 21, .pad rec.metadata.length]) := by
  have ho := insertRecord_outcome hs rec kv
  rw [h] at ho
  cases ho with
  | refused _ hu hp h0 h32 hc =>
    have hid : ∃ id, s.bucketID E rec.username = .ok id := by
      rcases bucketID_cases hs rec.username with ⟨-, -, -, id, hid⟩ | ⟨hc, -⟩
      · exact ⟨id, hid⟩
      · omega
    obtain ⟨id, hid⟩ := hid
    have he : ∃ e, s.encryptBucketEntry E rec.username rec.password MetadataBreachedPassword rec.metadata = .err e := by
      by_cases ht : Spec.tweak s.suite s.privateKey = 0
      · exact ⟨_, encryptBucketEntry_zero hs _ _ MetadataBreachedPassword _ (by decide) hu hp ht⟩
      · exact ⟨_, encryptBucketEntry_long hs _ _ MetadataBreachedPassword _ (by decide) hu hp ht
          (hc.resolve_left ht)⟩
    obtain ⟨e', he⟩ := he
    unfold insertT
    dsimp only
    rw [server_bucketIDT_out, hid]
    dsimp only
    rw [encryptBucketEntryT_out, he, server_bucketIDT_ops hs _ hu, entryOps hs _ _ MetadataBreachedPassword _ (by decide) hu hp]
    rfl

theorem loadLinesT_cons_none {line : Bytes} (h : IsPart line none) (md : Bytes) (n : Int) (uv : Bool)
    (lines : List Bytes) (kv : KV) (a b : Nat) :
    loadLinesT E s md n uv (line :: lines) kv a b = loadLinesT E s md n uv lines kv a (b + 1) := by
  rw [loadLinesT, isPart_none_iff.mp h]

/-- C80: loading a file, when it does not crash: for each line with a colon one hash of the username and, for each credential
stored for it, one slow hash, one OPRF evaluation, two pads and one append. -/
theorem C80_load (hs : NewServer E cfg = .ok s) (ht : Spec.tweak s.suite s.privateKey ≠ 0) (md : Bytes) (hm : md.length ≤ 8160)
    (n : Int) (uv : Bool) (variants : Bytes → List Bytes)
    (hv : ∀ p, Mutator.mutate Mutator.dasRules p n = .ok (variants p)) (lines : List Bytes)
    (parts : List (Option (Bytes × Bytes))) (hp : List.Forall₂ IsPart lines parts) (kv kv' : KV) (a b a' b' : Nat)
    (hdone : loadLines E s md n uv lines kv a b = .done kv' a' b') :
    ∃ ids : Bytes → UInt32, (∀ x ∈ credentials parts, s.bucketID E x.1 = .ok (ids x.1)) ∧
      (loadLinesT E s md n uv lines kv a b).1 =
        (credentials parts).flatMap fun x => .bucketHash x.1.length ::
          (Record.stored ⟨x.1, x.2, md, n, uv⟩ (variants x.2)).flatMap
            (storeOps cfg.slowHasherID (BucketIDToHex (ids x.1))) := by
  let ids : Bytes → UInt32 := fun u => match s.bucketID E u with | .ok id => id | _ => 0
  have hids : ∀ u id, s.bucketID E u = .ok id → ids u = id := by
    intro u id h
    show (match s.bucketID E u with | .ok id => id | _ => 0) = id
    rw [h]
  refine ⟨ids, ?_⟩
  induction hp generalizing kv a b with
  | nil => exact ⟨by simp [credentials], rfl⟩
  | @cons line o lines parts ho _ ih =>
    cases o with
    | none =>
      rw [loadLines_cons_none ho] at hdone
      rw [loadLinesT_cons_none ho]
      exact ih kv a (b + 1) hdone
    | some x =>
      obtain ⟨u, p⟩ := x
      have hc : credentials (some (u, p) :: parts) = (u, p) :: credentials parts := rfl
      rw [loadLines_cons_some ho] at hdone
      have hout := insertRecord_outcome hs ⟨u, p, md, n, uv⟩ kv
      rcases hi : insertRecord E s ⟨u, p, md, n, uv⟩ kv with ⟨kv1, w | e | q⟩
      · obtain ⟨id, hid, hops⟩ := C80_insert hs ⟨u, p, md, n, uv⟩ kv kv1 hi (variants p) (hv p)
        rw [hi] at hdone
        dsimp only at hdone hid hops
        obtain ⟨ih1, ih2⟩ := ih kv1 (a + 1) b hdone
        rw [hc]
        constructor
        · intro x hx
          rcases List.mem_cons.mp hx with rfl | hx
          · dsimp only; rw [hids u id hid]; exact hid
          · exact ih1 x hx
        · rw [loadLinesT, isPart_some_iff.mp ho]
          dsimp only
          rw [insertT_out]
          have hi' : insert E s u p md n uv kv = (kv1, .ok w) := hi
          rw [hi']
          dsimp only
          rw [hops, ih2, List.flatMap_cons]
          dsimp only
          rw [hids u id hid]
      · rw [hi] at hout
        cases hout with
        | refused _ _ _ _ _ hc =>
          rcases hc with hc | hc
          · exact absurd hc ht
          · exact absurd hc (by dsimp only; omega)
      · rw [hi] at hdone
        cases hdone

theorem count_flatMap {α : Type} (f : α → List Op) (g : Op → Bool) (l : List α) (h : ∀ x ∈ l, ((f x).filter g).length = 1) :
    ((l.flatMap f).filter g).length = l.length := by
  induction l with
  | nil => rfl
  | cons x l ih =>
    rw [List.flatMap_cons, List.filter_append, List.length_append, h x List.mem_cons_self,
      ih fun y hy => h y (List.mem_cons_of_mem _ hy), List.length_cons]
    omega

theorem storeOps_counts (id : UInt16) (key : GoString) (x : Stored) :
    ((storeOps id key x).filter isFullEvaluate).length = 1 ∧ ((storeOps id key x).filter isAppend).length = 1 := by
  unfold storeOps slowOps
  split <;> exact ⟨rfl, rfl⟩

/-- C80: in particular the server makes exactly one OPRF evaluation and one append for each credential it stores, before it
serves anything. -/
theorem C80_load_count (hs : NewServer E cfg = .ok s) (ht : Spec.tweak s.suite s.privateKey ≠ 0) (md : Bytes)
    (hm : md.length ≤ 8160) (n : Int) (uv : Bool) (variants : Bytes → List Bytes)
    (hv : ∀ p, Mutator.mutate Mutator.dasRules p n = .ok (variants p)) (lines : List Bytes)
    (parts : List (Option (Bytes × Bytes))) (hp : List.Forall₂ IsPart lines parts) (kv kv' : KV) (a b a' b' : Nat)
    (hdone : loadLines E s md n uv lines kv a b = .done kv' a' b') :
    ((loadLinesT E s md n uv lines kv a b).1.filter isFullEvaluate).length =
      (storedAll md n uv variants (credentials parts)).length ∧
    ((loadLinesT E s md n uv lines kv a b).1.filter isAppend).length =
      (storedAll md n uv variants (credentials parts)).length := by
  obtain ⟨ids, -, h⟩ := C80_load hs ht md hm n uv variants hv lines parts hp kv kv' a b a' b' hdone
  rw [h]
  unfold storedAll
  generalize credentials parts = creds
  clear h hdone hp
  have key : ∀ g : Op → Bool, (∀ k, g (.bucketHash k) = false) →
      (∀ id key x, ((storeOps id key x).filter g).length = 1) →
      ((creds.flatMap fun x => .bucketHash x.1.length ::
          (Record.stored ⟨x.1, x.2, md, n, uv⟩ (variants x.2)).flatMap
            (storeOps cfg.slowHasherID (BucketIDToHex (ids x.1)))).filter g).length =
      (creds.flatMap fun c => Record.stored ⟨c.1, c.2, md, n, uv⟩ (variants c.2)).length := by
    intro g hg hs
    induction creds with
    | nil => rfl
    | cons x l ih =>
      rw [List.flatMap_cons, List.flatMap_cons, List.filter_append, List.length_append, List.length_append, ih,
        List.filter_cons_of_neg (by rw [hg]; simp), count_flatMap _ _ _ (fun y _ => hs _ _ y)]
  exact ⟨key isFullEvaluate (fun _ => rfl) (fun id k x => (storeOps_counts id k x).1),
    key isAppend (fun _ => rfl) (fun id k x => (storeOps_counts id k x).2)⟩

end

/-! ## Concrete cases -/

section
open Example

/-- C80_insert: inserting a password with one variant and the username makes three slow hashes and three OPRF evaluations. -/
example : ∃ id, server.bucketID ext (ascii "user") = .ok id ∧
    (insertT ext server (ascii "user") (ascii "abc") (ascii "A") 1 true newKVStore).1 =
      [.bucketHash 4,
        .scrypt 11, .fullEvaluate 32, .pad 21, .pad 1, .append (BucketIDToHex id) 26,
        .scrypt 11, .fullEvaluate 32, .pad 21, .pad 1, .append (BucketIDToHex id) 26,
        .scrypt 8, .fullEvaluate 32, .pad 21, .pad 1, .append (BucketIDToHex id) 26] := by
  obtain ⟨kv, h, -⟩ := example_history
  obtain ⟨id, h1, h2⟩ := C80_insert newServer_eq rec0 newKVStore kv h [ascii "Abc"] rec0_variants
  exact ⟨id, h1, h2.trans rfl⟩

/-- C80_refused: metadata that is too long is noticed only after the slow hash and the OPRF evaluation. -/
example : (insertT ext server [] [] (List.replicate 8161 0) 0 false newKVStore).1 =
    [.bucketHash 0, .scrypt 4, .fullEvaluate 32, .pad 21, .pad 8161] := by
  have hlong : (insertRecord ext server ⟨[], [], List.replicate 8161 0, 0, false⟩ newKVStore).2.IsErr := by
    rw [(C45_outcomes newServer_eq _ _).2]
    exact ⟨⟨by decide, by decide, by simp, by simp⟩, .inl (by rw [List.length_replicate]; decide)⟩
  obtain ⟨e, he⟩ := hlong
  have h := C80_refused newServer_eq ⟨[], [], List.replicate 8161 0, 0, false⟩ newKVStore _ e (Prod.ext rfl he)
  rw [if_neg example_tweak] at h
  dsimp only at h
  rw [List.length_replicate] at h
  exact h.trans rfl

/-- C80_finalize_exact, C80_server_uniform, C80_request_ops: in the store of that insert, the third entry is found after two
others. -/
example (r : ZMod client.suite.q) (hr : r ≠ 0) : ∃ (kv : KV) (req : ClientRequest) (ctx : ClientRequestContext) (resp : ServerResponse) (id : UInt32),
    client.request ext (ascii "user") [] r = .ok (req, ctx) ∧ server.handleRequest req kv.get = .ok resp ∧
    (client.requestT ext (ascii "user") [] r).ops = [.scrypt 8, .blind 32, .bucketHash 4] ∧
    (server.handleRequestT req kv.get).ops = [.evaluate, .get (BucketIDToHex id)] ∧
    (ctx.finalizeT ext resp).1 = [.unblind, .pad 21, .pad 21, .pad 21, .pad 1] := by
  obtain ⟨kv, -, hh⟩ := example_history
  obtain ⟨req, ctx, resp, h1, h2⟩ := example_request kv (ascii "user") [] (by decide) (by decide) r
  obtain ⟨id, h3, h4⟩ := C80_server_uniform newClient_eq newServer_eq example_tweak (ascii "user") [] r req ctx h1 kv.get
  refine ⟨kv, req, ctx, resp, id, h1, h2, ?_, h4, ?_⟩
  · exact C80_request_ops newClient_eq (ascii "user") [] r (by rw [h1]; simp)
  · rw [C80_finalize_exact newClient_eq newServer_eq hh (ascii "user") [] r hr ?_ req ctx h1 resp h2]
    · have hl : lookup [⟨ascii "user", ascii "abc", 1, ascii "A"⟩, ⟨ascii "user", ascii "Abc", 2, ascii "A"⟩,
          ⟨ascii "user", [], 3, ascii "A"⟩] (ascii "user") [] = some ⟨ascii "user", [], 3, ascii "A"⟩ := by
        decide +kernel
      rw [hl, List.filter_eq_self.mpr (by
        intro x hx
        rcases List.mem_cons.mp hx with rfl | hx
        · exact decide_eq_true rfl
        rcases List.mem_cons.mp hx with rfl | hx
        · exact decide_eq_true rfl
        · rw [List.mem_singleton.mp hx]
          exact decide_eq_true rfl)]
      rfl
    · intro x hx
      rcases List.mem_cons.mp hx with rfl | hx
      · exact example_no_collision _ _ _ _ (by decide) (by decide) example_tags2.1
      rcases List.mem_cons.mp hx with rfl | hx
      · exact example_no_collision _ _ _ _ (by decide) (by decide) example_tags2.2.1
      · rw [List.mem_singleton] at hx
        subst hx
        exact fun h => h.1 ⟨rfl, rfl⟩

/-- C80_load, C80_load_count: a line with a colon and one without, one variant and the username: three
evaluations and three appends. -/
example : ∃ kv, loadLines ext server (ascii "A") 1 true [ascii "user:abc", ascii "abc"] newKVStore 0 0 = .done kv 1 1 ∧
    ((loadLinesT ext server (ascii "A") 1 true [ascii "user:abc", ascii "abc"] newKVStore 0 0).1.filter isFullEvaluate).length = 3 ∧
    ((loadLinesT ext server (ascii "A") 1 true [ascii "user:abc", ascii "abc"] newKVStore 0 0).1.filter isAppend).length = 3 := by
  obtain ⟨variants, hv⟩ := mutate_variants 1 (by decide) (by decide)
  have hp : List.Forall₂ IsPart [ascii "user:abc", ascii "abc"] [some (ascii "user", ascii "abc"), none] :=
    .cons (isPart_some_iff.mpr (by decide)) (.cons (isPart_none_iff.mpr (by decide)) .nil)
  have hva : variants (ascii "abc") = [ascii "Abc"] := Res.ok.inj ((hv _).symm.trans rec0_variants)
  have hc : credentials [some (ascii "user", ascii "abc"), none] = [(ascii "user", ascii "abc")] := rfl
  obtain ⟨kv, hd, -⟩ := (load_stores newServer_eq (by decide) (by decide) example_tweak (ascii "A") (by decide) 1 true (by decide)
    (by decide) variants hv _ _ hp (by rw [hc]; intro x hx; rw [List.mem_singleton.mp hx]; decide) newKVStore [] .start 0 0).1 (by
      rw [hc]
      intro x hx v hvx
      rw [List.mem_singleton.mp hx, hva] at hvx
      rw [List.mem_singleton.mp hvx]
      decide)
  refine ⟨kv, hd, ?_⟩
  obtain ⟨h1, h2⟩ := C80_load_count newServer_eq example_tweak (ascii "A") (by decide) 1 true variants hv _ _ hp newKVStore kv 0 0 _ _ hd
  rw [h1, h2, hc]
  unfold storedAll
  rw [List.flatMap_singleton, hva]
  exact ⟨rfl, rfl⟩

/-- C80_query: a query that the network does not answer has cost the slow hash, the blinding and the hash of the username. -/
example (rand : (S : Suite) → ZMod S.q) :
    (∀ q, Query ext Example.cfg.toConfig (fun _ => .failed) (ascii "user") [] rand ≠ .panic q) ∧
    (QueryT ext Example.cfg.toConfig (fun _ => .failed) (ascii "user") [] rand).1 = [.scrypt 8, .blind 32, .bucketHash 4] := by
  obtain ⟨req, ctx, -, h1, -⟩ := example_request newKVStore (ascii "user") [] (by decide) (by decide) (rand client.suite)
  have hops := C80_request_ops newClient_eq (ascii "user") [] (rand client.suite) (by rw [h1]; simp)
  constructor
  · intro q
    unfold Query
    rw [newClient_eq]
    dsimp only
    rw [h1]
    exact nofun
  · unfold QueryT
    rw [newClient_eq]
    dsimp only
    rw [requestT_out, h1, hops]
    rfl

end

end Migp.Props
