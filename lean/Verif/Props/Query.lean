import Verif.Props.Http
import Verif.Props.Shadow
/-!
# C54, C59: `Query` end to end
-/
namespace Migp.Props
open Migp.Json Migp.Http Migp.Spec

variable {E : Ext} {cfg : ServerConfig} {c : Client} {s : Server}

/-- What the network brings back from `/evaluate` for a well-formed body. -/
theorem deliver_evaluate (s : Server) (kv : KV) (stale : Nat → Nat → UInt8) (req : ClientRequest) (b : Bytes)
    (hx : hexDecode req.bucketID = some b) :
    (∀ e, s.handleRequest req kv.get = .err e →
      deliver s kv stale (ascii "/evaluate") req.marshalJSON =
        .reply 500 (some (ascii "Internal Server Error\n"))) ∧
    (∀ resp bytes, s.handleRequest req kv.get = .ok resp → resp.marshalBinary = .ok bytes →
      deliver s kv stale (ascii "/evaluate") req.marshalJSON = .reply 200 (some bytes)) := by
  have hr : route (ascii "/evaluate") = .evaluate := by decide
  obtain ⟨w, h1, -, h2⟩ := C50_evaluate s kv stale (some req.marshalJSON)
  obtain ⟨-, h3, h4⟩ := h2 _ rfl
  rw [C53_request_hex req ClientRequest.zero stale b hx] at h3 h4
  unfold deliver serve
  rw [hr]
  dsimp only
  rw [h1]
  dsimp only
  constructor
  · intro e he
    rw [h3 rfl e he]
  · intro resp bytes hresp hm
    obtain ⟨bytes', g1, g2⟩ := h4 rfl resp hresp
    rw [hm] at g1
    cases g1
    rw [g2]

/-- C54: over HTTP, `Query` gives exactly what the protocol gives in one process, for every store and
credential, if elements have 33 bytes (the default suite), the server's key is usable, and the credential does
not hash to the identity element. -/
theorem C54_query_eq_exchange (hc : NewClient E cfg.toConfig = .ok c) (hs : NewServer E cfg = .ok s)
    (hlen : s.suite.elemLen = 33) (ht : Spec.tweak s.suite s.privateKey ≠ 0) (kv : KV)
    (stale : Nat → Nat → UInt8) (u p : Bytes) (rand : (S : Suite) → ZMod S.q) (hr : rand c.suite ≠ 0)
    (he : c.suite.hashToElement (Spec.oprfInput E cfg.slowHasherID u p) ≠ 0) :
    Query E cfg.toConfig (deliver s kv stale (ascii "/evaluate")) u p rand =
      exchange E c s kv u p (rand c.suite) := by
  unfold Query exchange
  rw [hc]
  dsimp only
  cases hreq : c.request E u p (rand c.suite) with
  | panic q => rfl
  | err e => rfl
  | ok rc =>
    obtain ⟨req, ctx⟩ := rc
    dsimp only
    have hnp := (C02_request_panics_iff cfg.toConfig c hc u p (rand c.suite)).1
    rw [hreq] at hnp
    simp only [Res.isPanic_ok, false_iff] at hnp
    obtain ⟨id, -, -, h2⟩ := request_ok cfg.toConfig c hc u p (by omega) (by omega)
      (by omega) (by omega) (rand c.suite)
    rw [hreq] at h2
    injection h2 with h2
    obtain ⟨hq, hctx⟩ := Prod.mk.inj h2
    have hx : ∃ b, hexDecode req.bucketID = some b := by
      rw [hq]; unfold BucketIDToHex; exact ⟨_, hexDecode_hexEncode _⟩
    obtain ⟨b, hx⟩ := hx
    have hd : ∃ g, g ≠ 0 ∧ s.suite.de req.blindElement = some g := by
      rw [hq, ← suite_eq hc hs]
      exact ⟨_, mul_ne_zero hr he, c.suite.de_ser _⟩
    obtain ⟨g, hg0, hg⟩ := hd
    have hv : req.version.toNat % 65536 = s.version.toNat := by
      have e1 : s.version = cfg.version := by
        obtain ⟨slow', S', _, _, _, _, _, rfl⟩ := newServer_ok hs; rfl
      have h3 := cfg.version.toNat_lt
      rw [e1, hq]
      dsimp only
      rw [UInt32.toNat_ofNat']
      omega
    have hresp := (C17_ok_iff s req kv.get _).mpr ⟨hv, ht,
      (hexDecode_isSome_iff _).mp (by rw [hx]; rfl), g, _, hg, rfl, rfl⟩
    have hsurv := C20_default_suite_survives s hlen req kv.get _ hresp
      (by rw [hg]; intro h; exact hg0 (Option.some.inj h))
    obtain ⟨bytes, hm, hum⟩ := Res.bind_eq_ok.mp hsurv
    rw [(deliver_evaluate s kv stale req b hx).2 _ bytes hresp hm, hresp]
    dsimp only
    rw [if_neg (by simp), hum]

/-- C54: if the server's key cannot be used (`HandleRequest` refuses everything), `Query` reports status 500. -/
theorem C54_unusable_key (hc : NewClient E cfg.toConfig = .ok c) (hs : NewServer E cfg = .ok s)
    (ht : Spec.tweak s.suite s.privateKey = 0) (kv : KV) (stale : Nat → Nat → UInt8) (u p : Bytes)
    (rand : (S : Suite) → ZMod S.q) (hu : u.length ≤ 65536) (hp : p.length ≤ 65536)
    (h0 : 0 ≤ cfg.bucketIDBitSize) (h32 : cfg.bucketIDBitSize ≤ 32) :
    Query E cfg.toConfig (deliver s kv stale (ascii "/evaluate")) u p rand =
      .ret NotInBreach none (some (.httpStatus 500)) := by
  obtain ⟨id, -, -, h2⟩ := request_ok cfg.toConfig c hc u p hu hp h0 h32 (rand c.suite)
  unfold Query
  rw [hc]
  dsimp only
  rw [h2]
  dsimp only
  have hv : (UInt32.ofNat cfg.version.toNat).toNat % 65536 = s.version.toNat := by
    have e1 : s.version = cfg.version := by
      obtain ⟨slow', S', _, _, _, _, _, rfl⟩ := newServer_ok hs; rfl
    have h3 := cfg.version.toNat_lt
    rw [e1, UInt32.toNat_ofNat']
    omega
  rw [(deliver_evaluate s kv stale _ _ (hexDecode_hexEncode (be32 id))).1 _
    ((C17_errors s _ _).2.1 hv ht)]
  rfl

/-- C54: end to end. After any history of inserts, absent tag collisions with the queried credential, `Query`
over HTTP answers what looking the credential up in the list of stored credentials gives. -/
theorem C54_ideal_lookup (hc : NewClient E cfg.toConfig = .ok c) (hs : NewServer E cfg = .ok s)
    (hlen : s.suite.elemLen = 33) (ht : Spec.tweak s.suite s.privateKey ≠ 0) {kv : KV} {db : List Stored}
    (h : History E s kv db) (stale : Nat → Nat → UInt8) (u p : Bytes) (rand : (S : Suite) → ZMod S.q)
    (hr : rand c.suite ≠ 0)
    (he : c.suite.hashToElement (Spec.oprfInput E cfg.slowHasherID u p) ≠ 0)
    (hu : u.length ≤ 65536) (hp : p.length ≤ 65536) (h0 : 0 ≤ cfg.bucketIDBitSize)
    (h32 : cfg.bucketIDBitSize ≤ 32) (hno : ∀ x ∈ db, ¬ TagCollision E s x u p) :
    Query E cfg.toConfig (deliver s kv stale (ascii "/evaluate")) u p rand =
      match lookup db u p with
      | none => .ret NotInBreach none none
      | some x => .ret (MetadataType.toBreachStatus x.flag) (some x.metadata) none := by
  rw [C54_query_eq_exchange hc hs hlen ht kv stale u p rand hr he]
  exact C28_ideal_lookup hc hs h u p _ hu hp h0 h32 ht hr hno

/-- The example suite never hashes to the identity element. -/
theorem toy_hash_ne (b : Bytes) : Example.toySuite.hashToElement b ≠ 0 := by
  show ((Example.byteSum b % 100 + 1 : ℕ) : ZMod 101) ≠ 0
  rw [Ne, ZMod.natCast_eq_zero_iff]
  intro h
  have := Nat.le_of_dvd (by omega) h
  omega

/-- C54, a complete concrete run: two inserts into the default server, then `Query` over HTTP. -/
theorem C54_example : ∃ kv₁ kv₂,
    insertRecord Example.ext Example.server ⟨ascii "user", ascii "password1", ascii "A", 2, false⟩ newKVStore
      = (kv₁, .ok ()) ∧
    insertRecord Example.ext Example.server ⟨ascii "user", ascii "password", ascii "B", 0, false⟩ kv₁
      = (kv₂, .ok ()) ∧
    ∀ stale (rand : (S : Suite) → ZMod S.q), rand Example.client.suite ≠ 0 →
      Query Example.ext Example.cfg.toConfig (deliver Example.server kv₂ stale (ascii "/evaluate"))
        (ascii "user") (ascii "password") rand = .ret SimilarInBreach (some (ascii "A")) none := by
  obtain ⟨kv₁, kv₂, h1, h2, h3⟩ := C30_example
  refine ⟨kv₁, kv₂, h1, h2, fun stale rand hr => ?_⟩
  rw [C54_query_eq_exchange Example.newClient_eq Example.newServer_eq rfl example_tweak kv₂ stale _ _ rand hr
    (toy_hash_ne _)]
  exact h3 _ hr

/-! ## C59: routes, and queries sent to the wrong path -/

/-- C59: exactly the paths `/evaluate` and `/config` reach their handlers. Every other path the mux does
not redirect gets the welcome page with status 200 — `/evaluate/` and misspelled paths, too. -/
theorem C59_routes (path : GoString) :
    (route path = .evaluate ↔ path = ascii "/evaluate") ∧
    (route path = .config ↔ path = ascii "/config") ∧
    (∀ t, route path = .redirect t ↔ cleanPath path ≠ path ∧ t = cleanPath path) ∧
    (route path = .index ↔
      cleanPath path = path ∧ path ≠ ascii "/evaluate" ∧ path ≠ ascii "/config") := by
  have c1 : cleanPath (ascii "/evaluate") = ascii "/evaluate" := by decide
  have c2 : cleanPath (ascii "/config") = ascii "/config" := by decide
  have n1 : ¬ ([47] : GoString) = ascii "/evaluate" := by decide
  have n2 : ¬ ([47] : GoString) = ascii "/config" := by decide
  unfold route muxHandler
  by_cases hcl : cleanPath path = path
  · rw [if_neg (by simpa using hcl)]
    by_cases he : path = ascii "/evaluate"
    · rw [if_pos (by rw [he]; simp)]
      dsimp only
      rw [if_pos he]
      refine ⟨by simp [he], ?_, ?_, ?_⟩
      · rw [he]; decide
      · intro t; simp [hcl]
      · simp [he]
    · by_cases hcf : path = ascii "/config"
      · rw [if_pos (by rw [hcf]; simp)]
        dsimp only
        rw [if_neg he, if_pos hcf]
        refine ⟨by simp [he], by simp [hcf], ?_, ?_⟩
        · intro t; simp [hcl]
        · simp [hcf]
      · have : (if path ∈ [ascii "/", ascii "/evaluate", ascii "/config"] then
            (Sum.inl path : GoString ⊕ GoString) else .inl [47]) = .inl [47] := by
          split
          · rename_i hm
            simp only [List.mem_cons, List.not_mem_nil, or_false] at hm
            rcases hm with hm | hm | hm
            · rw [hm]; rfl
            · exact absurd hm he
            · exact absurd hm hcf
          · rfl
        rw [this]
        dsimp only
        rw [if_neg n1, if_neg n2]
        refine ⟨by simp [he], by simp [hcf], ?_, by simp [he, hcf, hcl]⟩
        intro t; simp [hcl]
  · rw [if_pos hcl]
    dsimp only
    refine ⟨?_, ?_, ?_, ?_⟩
    · constructor
      · intro h; cases h
      · rintro rfl; exact absurd c1 hcl
    · constructor
      · intro h; cases h
      · rintro rfl; exact absurd c2 hcl
    · intro t
      constructor
      · intro h; cases h; exact ⟨hcl, rfl⟩
      · rintro ⟨-, rfl⟩; rfl
    · constructor
      · intro h; cases h
      · rintro ⟨h, -⟩; exact absurd h hcl

/-- C59: a `Query` to any other path of a server never reports a result: it returns an error (or panics
before sending). The version 30309 is excluded because a configuration page begins with the bytes of
that version. -/
theorem C59_wrong_path (ccfg : Config) (s : Server) (kv : KV) (stale : Nat → Nat → UInt8) (path : GoString)
    (hpath : path ≠ ascii "/evaluate") (hv : ccfg.version ≠ 30309) (u p : Bytes)
    (rand : (S : Suite) → ZMod S.q) :
    (∃ e, Query E ccfg (deliver s kv stale path) u p rand = .ret NotInBreach none (some e)) ∨
    ∃ q, Query E ccfg (deliver s kv stale path) u p rand = .panic q := by
  cases hQ : Query E ccfg (deliver s kv stale path) u p rand with
  | panic q => exact .inr ⟨q, rfl⟩
  | ret st md err =>
    left
    by_cases hne : st ≠ NotInBreach ∨ md ≠ none ∨ err = none
    · exfalso
      obtain ⟨-, c, req, ctx, body, resp, hc, hreq, hpost, hl, hum, hfin⟩ :=
        C54_only_from_reply ccfg _ u p rand st md err hQ hne
      obtain ⟨r1, r2, r3, r4⟩ := C59_routes path
      unfold deliver serve at hpost
      cases hroute : route path with
      | evaluate => exact hpath (r1.mp hroute)
      | redirect t => rw [hroute] at hpost; cases hpost
      | index =>
        rw [hroute] at hpost
        dsimp only at hpost
        have : body = ascii "Welcome to the MIGP demo server\n" := by
          injection hpost with _ hb
          injection hb with hb
          exact hb.symm
        rw [this] at hl
        revert hl
        decide
      | config =>
        rw [hroute] at hpost
        dsimp only at hpost
        have hb : body = s.config.toConfig.marshalJSON ++ [10] := by
          injection hpost with _ hb
          injection hb with hb
          exact hb.symm
        obtain ⟨rest, hrest⟩ : ∃ rest, body = 123 :: 34 :: 118 :: 101 :: rest := by
          rw [hb]; exact ⟨_, rfl⟩
        obtain ⟨resp', g1, g2, -⟩ := (C20_unmarshal body).2.2 hl
        rw [hum] at g1
        cases g1
        have hver : UInt16.ofNat resp.version.toNat = 30309 := by
          rw [g2, hrest]
          simp only [List.take_succ_cons, List.take_zero, List.foldl_cons, List.foldl_nil]
          decide
        have hcv : ctx.client.version = ccfg.version := by
          have hctx : ctx.client = c := by
            unfold Client.request at hreq
            obtain ⟨_, _, hreq⟩ := Res.bind_eq_ok.mp hreq
            obtain ⟨_, _, hreq⟩ := Res.bind_eq_ok.mp hreq
            obtain ⟨_, _, hreq⟩ := Res.bind_eq_ok.mp hreq
            injection hreq with hreq
            rw [← (Prod.mk.inj hreq).2]
          rw [hctx]
          obtain ⟨slow', S', _, _, _, _, rfl⟩ := newClient_ok hc; rfl
        unfold ClientRequestContext.finalize at hfin
        rw [if_pos (by rw [hver, hcv]; exact fun h => hv h.symm)] at hfin
        injection hfin with _ _ h3
        cases h3
    · simp only [not_or, not_not] at hne
      obtain ⟨h1, h2, h3⟩ := hne
      subst h1 h2
      cases err with
      | none => exact absurd rfl h3
      | some e => exact ⟨e, rfl⟩

/-- Clean and other paths. -/
example : route (ascii "/evaluate/") = .index ∧ route (ascii "/Evaluate") = .index ∧
    route (ascii "//evaluate") = .redirect (ascii "/evaluate") ∧
    route (ascii "/x/../evaluate") = .redirect (ascii "/evaluate") ∧
    route (ascii "/evaluate/.") = .redirect (ascii "/evaluate") ∧
    route [] = .redirect (ascii "/") := by decide

end Migp.Props
