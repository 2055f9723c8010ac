import Verif.Props.Trust
import Verif.Props.Query
/-!
# C89: replies that belong to other requests

A reply may come to the wrong request: replies of concurrent requests are mixed up, a proxy answers from its cache, somebody
replays what he recorded.
-/
namespace Migp.Props
open Spec Http Mutator

variable {E : Ext} {cfg : ServerConfig} {s : Server} {c : Client}

/-- A coincidence of 20-byte tags: the tag of the stored credential `x` is that of the secret which a client asking for
`(u, p)` derives from the group element `z`, although they are different credentials, or `z` is not the element that
belongs to `(u, p)`. -/
def StrangeTag (E : Ext) (slowHasherID : UInt16) (S : Suite) (key : PrivateKey) (x : Stored) (u p : Bytes) (z : ZMod S.q) : Prop :=
  let i := Spec.oprfInput E slowHasherID x.username x.password
  let j := Spec.oprfInput E slowHasherID u p
  let y := (Spec.tweak S key)⁻¹ * S.hashToElement i
  ((x.username, x.password) ≠ (u, p) ∨ y ≠ z) ∧
  Spec.keyTag E.sha256 (S.finalizeHash i Spec.info (S.ser y)) = Spec.keyTag E.sha256 (S.finalizeHash j Spec.info (S.ser z))

theorem reply_of_element (hsuite : c.suite = s.suite) (req : ClientRequest) (kv : KV) (g : ZMod c.suite.q)
    (hg : req.blindElement = c.suite.ser g) {resp : ServerResponse} (h : s.handleRequest req kv.get = .ok resp) :
    resp = ⟨req.version, c.suite.ser ((Spec.tweak c.suite s.privateKey)⁻¹ * g), kv.store req.bucketID⟩ ∧
    Spec.tweak s.suite s.privateKey ≠ 0 := by
  obtain ⟨-, ht, -, g', contents, h1, h2, h3⟩ := (C17_ok_iff s req kv.get resp).mp h
  refine ⟨?_, ht⟩
  injection h2 with h2
  rw [h3, ← h2]
  cases c; cases s
  dsimp only at hsuite g hg h1 ⊢
  subst hsuite
  rw [hg, Suite.de_ser] at h1
  injection h1 with h1
  rw [h1]

/-- C89: a reply that was made for another request - another credential, or the same one with another blind - makes `Finalize`
report `NotInBreach` without any error, whatever is stored: a breached password is then reported as not in a breach. The
only exception would be a coincidence of 20-byte tags. -/
theorem C89_other_request (hc : NewClient E cfg.toConfig = .ok c) (hs : NewServer E cfg = .ok s)
    {kv : KV} {db : List Stored} (h : History E s kv db) (u p u' p' : Bytes) (r r' : ZMod c.suite.q) (hr : r ≠ 0)
    (req req' : ClientRequest) (ctx ctx' : ClientRequestContext) (resp' : ServerResponse)
    (hq : c.request E u p r = .ok (req, ctx)) (hq' : c.request E u' p' r' = .ok (req', ctx'))
    (hresp : s.handleRequest req' kv.get = .ok resp') (hne : req' ≠ req) :
    ctx.finalize E resp' = .ret NotInBreach none none ∨
    ∃ x ∈ db, s.bucketID E x.username = s.bucketID E u' ∧
      StrangeTag E cfg.slowHasherID c.suite cfg.privateKey x u p
        (r⁻¹ * ((Spec.tweak c.suite cfg.privateKey)⁻¹ *
          (r' * c.suite.hashToElement (Spec.oprfInput E cfg.slowHasherID u' p')))) := by
  have hsuite := suite_eq hc hs
  have hkey : s.privateKey = cfg.privateKey := by
    obtain ⟨slow', S', _, _, _, _, _, rfl⟩ := newServer_ok hs; rfl
  have hb := C14_same_bucket cfg c s hc hs
  have hnp := (C02_request_panics_iff cfg.toConfig c hc u p r).1
  rw [hq] at hnp
  simp only [Res.isPanic_ok, false_iff] at hnp
  have hnp' := (C02_request_panics_iff cfg.toConfig c hc u' p' r').1
  rw [hq'] at hnp'
  simp only [Res.isPanic_ok, false_iff] at hnp'
  obtain ⟨id, hid, -, h1⟩ := request_ok cfg.toConfig c hc u p (by omega) (by omega) (by omega) (by omega) r
  obtain ⟨id', hid', -, h1'⟩ := request_ok cfg.toConfig c hc u' p' (by omega) (by omega) (by omega) (by omega) r'
  rw [hq] at h1
  rw [hq'] at h1'
  injection h1 with h1
  injection h1' with h1'
  obtain ⟨e1, e2⟩ := Prod.mk.inj h1
  obtain ⟨e1', -⟩ := Prod.mk.inj h1'
  subst e1 e2 e1'
  obtain ⟨rfl, ht⟩ := reply_of_element hsuite _ kv _ rfl hresp
  rw [hkey] at ht ⊢
  have hv : ¬ (UInt16.ofNat (UInt32.ofNat cfg.version.toNat).toNat ≠ c.version) := by
    have hcv : c.version = cfg.version := by
      obtain ⟨slow', S', _, _, _, _, rfl⟩ := newClient_ok hc; rfl
    rw [hcv, ne_eq, not_not, ← UInt16.toNat_inj, UInt16.toNat_ofNat', UInt32.toNat_ofNat']
    have h3 := cfg.version.toNat_lt
    omega
  unfold ClientRequestContext.finalize
  dsimp only
  rw [if_neg hv]
  unfold Suite.clientFinalize
  rw [c.suite.de_ser]
  dsimp only
  rw [history_search hs h]
  split
  · exact .inl rfl
  · rename_i x hx
    right
    have hm := List.mem_of_find?_eq_some hx
    have hpx := List.find?_some hx
    obtain ⟨-, g2, -⟩ := history_invariant hs h
    obtain ⟨hf, idx, hidx⟩ := g2 x hm
    rw [inBucket_ok hidx] at hpx
    simp only [Bool.and_eq_true, beq_iff_eq, decide_eq_true_eq] at hpx
    have hbx := BucketIDToHex_inj hpx.1
    subst hbx
    have hkx : entryKey E cfg s x.username x.password =
        Spec.oprf c.suite cfg.privateKey (Spec.oprfInput E cfg.slowHasherID x.username x.password) := by
      unfold entryKey; rw [hkey, hsuite]
    refine ⟨x, hm, by rw [hidx, ← hb, hid'], ?_, ?_⟩
    · by_contra hcon
      rw [not_or, not_ne_iff, not_ne_iff] at hcon
      obtain ⟨hcr, hel⟩ := hcon
      obtain ⟨hxu, hxp⟩ := Prod.mk.inj hcr
      rw [hxu, hxp] at hel
      have htw : Spec.tweak c.suite cfg.privateKey ≠ 0 := by rw [hsuite]; exact ht
      have hel' : r * c.suite.hashToElement (Spec.oprfInput E cfg.slowHasherID u p) =
          r' * c.suite.hashToElement (Spec.oprfInput E cfg.slowHasherID u' p') := by
        have h4 := congrArg (fun z => Spec.tweak c.suite cfg.privateKey * (r * z)) hel
        rw [mul_inv_cancel_left₀ hr, mul_inv_cancel_left₀ htw, mul_left_comm r, mul_inv_cancel_left₀ htw] at h4
        exact h4
      have hids : id = idx := by
        rw [hb, ← hxu, hidx] at hid
        injection hid with hid
        exact hid.symm
      apply hne
      rw [hids]
      rw [hel']
    · rw [hkx] at hpx
      exact hpx.2

/-- C89: a reply to this very request, whenever it was made, gives the answer for the store at that time. -/
theorem C89_own_request (kv : KV) (u p : Bytes) (r : ZMod c.suite.q) (req : ClientRequest) (ctx : ClientRequestContext)
    (resp : ServerResponse) (hq : c.request E u p r = .ok (req, ctx)) (hresp : s.handleRequest req kv.get = .ok resp) :
    ctx.finalize E resp = exchange E c s kv u p r := by
  unfold exchange
  rw [hq]
  dsimp only
  rw [hresp]

/-- C89: over HTTP: when the network answers a query with what the server sent for an earlier one - a cache, a mix-up, a
replay - `Query` returns `NotInBreach` without any error, unless the two queries drew such blinds that they sent the same
bytes, or 20-byte tags coincide. -/
theorem C89_query (hc : NewClient E cfg.toConfig = .ok c) (hs : NewServer E cfg = .ok s) (hlen : s.suite.elemLen = 33)
    {kv : KV} {db : List Stored} (h : History E s kv db) (stale : Nat → Nat → UInt8) (u p u' p' : Bytes)
    (rand rand' : (S : Suite) → ZMod S.q) (hr : rand c.suite ≠ 0) (hr' : rand' c.suite ≠ 0)
    (he : c.suite.hashToElement (Spec.oprfInput E cfg.slowHasherID u' p') ≠ 0)
    (ht : Spec.tweak s.suite s.privateKey ≠ 0)
    (req req' : ClientRequest) (ctx ctx' : ClientRequestContext)
    (hq : c.request E u p (rand c.suite) = .ok (req, ctx)) (hq' : c.request E u' p' (rand' c.suite) = .ok (req', ctx'))
    (hne : req' ≠ req) (post : Bytes → Transport)
    (hpost : post req.marshalJSON = deliver s kv stale (ascii "/evaluate") req'.marshalJSON) :
    Query E cfg.toConfig post u p rand = .ret NotInBreach none none ∨
    ∃ x ∈ db, s.bucketID E x.username = s.bucketID E u' ∧
      StrangeTag E cfg.slowHasherID c.suite cfg.privateKey x u p
        ((rand c.suite)⁻¹ * ((Spec.tweak c.suite cfg.privateKey)⁻¹ *
          (rand' c.suite * c.suite.hashToElement (Spec.oprfInput E cfg.slowHasherID u' p')))) := by
  have hnp := (C02_request_panics_iff cfg.toConfig c hc u' p' (rand' c.suite)).1
  rw [hq'] at hnp
  simp only [Res.isPanic_ok, false_iff] at hnp
  obtain ⟨id, -, -, h2⟩ := request_ok cfg.toConfig c hc u' p' (by omega) (by omega)
    (by omega) (by omega) (rand' c.suite)
  rw [hq'] at h2
  injection h2 with h2
  obtain ⟨hqq, -⟩ := Prod.mk.inj h2
  have hx : ∃ b, hexDecode req'.bucketID = some b := by
    rw [hqq]; unfold BucketIDToHex; exact ⟨_, hexDecode_hexEncode _⟩
  obtain ⟨b, hx⟩ := hx
  have hd : ∃ g, g ≠ 0 ∧ s.suite.de req'.blindElement = some g := by
    rw [hqq, ← suite_eq hc hs]
    exact ⟨_, mul_ne_zero hr' he, c.suite.de_ser _⟩
  obtain ⟨g, hg0, hg⟩ := hd
  have hv : req'.version.toNat % 65536 = s.version.toNat := by
    have e1 : s.version = cfg.version := by
      obtain ⟨slow', S', _, _, _, _, _, rfl⟩ := newServer_ok hs; rfl
    have h3 := cfg.version.toNat_lt
    rw [e1, hqq]
    dsimp only
    rw [UInt32.toNat_ofNat']
    omega
  have hresp := (C17_ok_iff s req' kv.get _).mpr ⟨hv, ht,
    (hexDecode_isSome_iff _).mp (by rw [hx]; rfl), g, _, hg, rfl, rfl⟩
  have hsurv := C20_default_suite_survives s hlen req' kv.get _ hresp
    (by rw [hg]; intro h; exact hg0 (Option.some.inj h))
  obtain ⟨bytes, hm, hum⟩ := Res.bind_eq_ok.mp hsurv
  have hdel := (deliver_evaluate s kv stale req' b hx).2 _ bytes hresp hm
  have hQ : Query E cfg.toConfig post u p rand = ctx.finalize E
      { version := req'.version, evaluatedElement := s.suite.ser ((Spec.tweak s.suite s.privateKey)⁻¹ * g),
        bucketContents := kv.store req'.bucketID } := by
    unfold Query
    rw [hc]
    dsimp only
    rw [hq]
    dsimp only
    rw [hpost, hdel]
    dsimp only
    rw [if_neg (by simp), hum]
  rw [hQ]
  exact C89_other_request hc hs h u p u' p' _ _ hr req req' ctx ctx' _ hq hq' hresp hne

/-! ## Concrete cases -/

section concrete
open Example

/-- A store with one breached password. -/
def oneStore : KV := (insertRecord ext server ⟨ascii "user", ascii "abc", ascii "A", 0, false⟩ newKVStore).1

theorem oneStore_history : History ext server oneStore [⟨ascii "user", ascii "abc", 1, ascii "A"⟩] := by
  obtain ⟨kv, h⟩ := example_insert ⟨ascii "user", ascii "abc", ascii "A", 0, false⟩ newKVStore
    (by decide) (by decide) (by decide) (by decide) (by decide)
  have e : oneStore = kv := by unfold oneStore; rw [h]
  rw [e]
  exact .inserted _ [] .start h (by decide +kernel)

/-- What the client program of the example makes of the reply to its own request with blind 2, and to another one. -/
def finalizes (u p : Bytes) (r : ZMod client.suite.q) (u' p' : Bytes) (r' : ZMod client.suite.q) : Option Out :=
  match client.request ext u p r, client.request ext u' p' r' with
  | .ok (_, ctx), .ok (req', _) =>
    match server.handleRequest req' oneStore.get with
    | .ok resp => some (ctx.finalize ext resp)
    | _ => none
  | _, _ => none

/-- C89: the silence of `C89_other_request` is real: a client that asks for a breached password is told so by the reply to its
own request, and by the reply to its own earlier request for the same password, sent with another blind, that there is
no breach. -/
theorem C89_example : ∃ req req' ctx ctx' resp resp',
    client.request ext (ascii "user") (ascii "abc") 2 = .ok (req, ctx) ∧
    client.request ext (ascii "user") (ascii "abc") 3 = .ok (req', ctx') ∧ req' ≠ req ∧
    server.handleRequest req oneStore.get = .ok resp ∧ server.handleRequest req' oneStore.get = .ok resp' ∧
    resp'.bucketContents = resp.bucketContents ∧
    ctx.finalize ext resp = .ret InBreach (some (ascii "A")) none ∧
    ctx.finalize ext resp' = .ret NotInBreach none none := by
  have key : ∀ (p : Bytes) (r r' : ZMod client.suite.q), p.length ≤ 65536 →
      ∃ req req' ctx ctx' resp resp', client.request ext (ascii "user") p r = .ok (req, ctx) ∧
        client.request ext (ascii "user") p r' = .ok (req', ctx') ∧
        server.handleRequest req oneStore.get = .ok resp ∧ server.handleRequest req' oneStore.get = .ok resp' ∧
        req'.bucketID = req.bucketID := by
    intro p r r' hp
    obtain ⟨req, ctx, resp, h1, h2⟩ := example_request oneStore (ascii "user") p (by decide) hp r
    obtain ⟨req', ctx', resp', h1', h2'⟩ := example_request oneStore (ascii "user") p (by decide) hp r'
    exact ⟨req, req', ctx, ctx', resp, resp', h1, h1', h2, h2',
      ((C16_public_fields _ _ newClient_eq _ _ _ _ _ _ _ _ _ h1' h1).2)⟩
  obtain ⟨req, req', ctx, ctx', resp, resp', h1, h1', h2, h2', hb⟩ := key (ascii "abc") 2 3 (by decide)
  have f1 : finalizes (ascii "user") (ascii "abc") 2 (ascii "user") (ascii "abc") 2 = some (.ret InBreach (some (ascii "A")) none) := by
    decide +kernel
  have f2 : finalizes (ascii "user") (ascii "abc") 2 (ascii "user") (ascii "abc") 3 = some (.ret NotInBreach none none) := by
    decide +kernel
  unfold finalizes at f1 f2
  rw [h1] at f1 f2
  rw [h1'] at f2
  dsimp only at f1 f2
  rw [h2] at f1
  rw [h2'] at f2
  dsimp only at f1 f2
  injection f1 with f1
  injection f2 with f2
  refine ⟨req, req', ctx, ctx', resp, resp', h1, h1', ?_, h2, h2', ?_, f1, f2⟩
  · rintro rfl
    rw [h2] at h2'
    injection h2' with h2'
    rw [h2', f2] at f1
    exact absurd f1 (by decide)
  · obtain ⟨-, -, -, g, x, -, hx, rfl⟩ := (C17_ok_iff _ _ _ _).mp h2
    obtain ⟨-, -, -, g', x', -, hx', rfl⟩ := (C17_ok_iff _ _ _ _).mp h2'
    rw [hb, hx] at hx'
    injection hx' with hx'
    exact hx'.symm

/-- C89_query: a cache that answers the query for a breached password with the reply to an earlier query for the same
password makes `Query` say that there is no breach. -/
example (stale : Nat → Nat → UInt8) (rand rand' : (S : Suite) → ZMod S.q) (h2 : rand client.suite = 2)
    (h3 : rand' client.suite = 3) : ∃ req',
    (∃ ctx', client.request ext (ascii "user") (ascii "abc") (rand' client.suite) = .ok (req', ctx')) ∧
    Query ext Example.cfg.toConfig (fun _ => deliver server oneStore stale (ascii "/evaluate") req'.marshalJSON)
      (ascii "user") (ascii "abc") rand = .ret NotInBreach none none := by
  obtain ⟨req, req', ctx, ctx', -, -, g1, g2, hne, -⟩ := C89_example
  rw [← h2] at g1
  rw [← h3] at g2
  refine ⟨req', ⟨ctx', g2⟩, ?_⟩
  rcases C89_query newClient_eq newServer_eq rfl oneStore_history stale (ascii "user") (ascii "abc") (ascii "user") (ascii "abc")
    rand rand' (by rw [h2]; decide) (by rw [h3]; decide) (toy_hash_ne _) example_tweak req req' ctx ctx' g1 g2 hne
    (fun _ => deliver server oneStore stale (ascii "/evaluate") req'.marshalJSON) rfl with h | ⟨x, hx, -, -, ht⟩
  · exact h
  · obtain rfl := List.mem_singleton.mp hx
    rw [h2, h3] at ht
    exact absurd ht (by decide +kernel)

end concrete

end Migp.Props
