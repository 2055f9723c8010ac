import Verif.Props.FinalizeApi
import Verif.Props.Witness2
/-!
# C75: what a response can make a client believe

The verdict of `Finalize` is not authenticated: it is a function of the response alone. These theorems say what
somebody who writes responses can make a client report, and what he cannot; and what happens when an honest store is
served under a key other than the one it was filled with.
-/
namespace Migp.Props
open Spec

variable {E : Ext} {cfg : ServerConfig} {s s' : Server} {c : Client}

/-- C75: whoever knows a credential can, without any key, write a bucket that makes every client that asks for this
credential report any status and metadata he likes, whatever blind the client draws and whatever bytes follow: he
echoes the blinded element of the request. -/
theorem C75_forge {cfg : Config} (hc : NewClient E cfg = .ok c) (u p : Bytes) (hu : u.length ≤ 65536)
    (hp : p.length ≤ 65536) (h0 : 0 ≤ cfg.bucketIDBitSize) (h32 : cfg.bucketIDBitSize ≤ 32)
    (flag : MetadataType) (body : Bytes) (hb : body.length ≤ 8160) :
    ∃ entry, c.bucketEncryptor.encrypt E
        (c.suite.finalizeHash (Spec.oprfInput E cfg.slowHasherID u p) Spec.info
          (c.suite.ser (c.suite.hashToElement (Spec.oprfInput E cfg.slowHasherID u p)))) flag body = .ok entry ∧
      ∀ r : ZMod c.suite.q, r ≠ 0 → ∃ req ctx, c.request E u p r = .ok (req, ctx) ∧
      ∀ rest, ctx.finalize E ⟨req.version, req.blindElement, entry ++ rest⟩ =
        .ret (MetadataType.toBreachStatus flag) (some body) none := by
  let x := Spec.oprfInput E cfg.slowHasherID u p
  let secret := c.suite.finalizeHash x Spec.info (c.suite.ser (c.suite.hashToElement x))
  refine ⟨entryParts E secret flag body, encrypt_ok E _ secret flag body hb, fun r hr => ?_⟩
  obtain ⟨id, -, -, hreq⟩ := request_ok cfg c hc u p hu hp h0 h32 r
  refine ⟨_, _, hreq, fun rest => ?_⟩
  have hcv : c.version = cfg.version := by
    obtain ⟨slow', S', _, _, _, _, rfl⟩ := newClient_ok hc; rfl
  refine C24_finalize_honest _ _ secret ?_ ?_ [] flag body [] (entryParts E secret flag body) rest rfl
    (encrypt_ok E _ secret flag body hb) (fun x hx => by cases hx) rfl
  · dsimp only
    have h3 := cfg.version.toNat_lt
    rw [hcv, UInt32.toNat_ofNat']
    omega
  · dsimp only
    unfold Suite.clientFinalize
    rw [c.suite.de_ser]
    dsimp only
    rw [inv_mul_cancel_left₀ hr]
    rfl

/-- C75: and a response with an empty bucket, or one of fewer than 25 bytes, makes every client report `NotInBreach`
with no error, whatever it asked for and whatever valid element the response carries. -/
theorem C75_deny (ctx : ClientRequestContext) (version : UInt32) (z : ZMod ctx.client.suite.q) (stray : Bytes)
    (hv : version.toNat % 65536 = ctx.client.version.toNat) (hs : stray.length < 25) :
    ctx.finalize E ⟨version, ctx.client.suite.ser z, stray⟩ = .ret NotInBreach none none :=
  (C25_finalize_iff ctx _ _ _ _).mpr <| .inr <| .inr
    ⟨hv, z, ctx.client.suite.de_ser z, .nothing [] stray (fun x hx => by cases hx) rfl (fun x hx => by cases hx) hs⟩

/-- What a client derives from a response: its OPRF output, if the evaluated element is valid. -/
def _root_.Migp.Spec.derived (ctx : ClientRequestContext) (resp : ServerResponse) : Option Bytes :=
  (ctx.client.suite.de resp.evaluatedElement).map fun z =>
    ctx.client.suite.finalizeHash ctx.input OprfInfo (ctx.client.suite.ser (ctx.blind⁻¹ * z))

theorem bucket_length_ge (es : List Spec.RawEntry) (h : ∀ e ∈ es, e.WF) : 25 * es.length ≤ (Spec.bucket es).length := by
  induction es with
  | nil => simp [Spec.bucket]
  | cons e es ih =>
    have h1 := ih fun x hx => h x (by simp [hx])
    have h2 : Spec.bucket (e :: es) = e.bytes ++ Spec.bucket es := by simp [Spec.bucket]
    have h3 := (h e (by simp)).1
    rw [h2, List.length_append, List.length_cons]
    simp only [Spec.RawEntry.bytes, Spec.len32, List.length_append, List.length_cons, List.length_nil]
    omega

/-- C75: a response that is written without knowing what a client asks cannot convince many: clients that derive
pairwise different 20-byte key tags from it and all find something in it are at most one for every 25 bytes of its
bucket. -/
theorem C75_limited (resp : ServerResponse) (ctxs : List ClientRequestContext)
    (hfound : ∀ ctx ∈ ctxs, ∃ status m err, ctx.finalize E resp = .ret status (some m) err)
    (hdist : (ctxs.map fun ctx => (Spec.derived ctx resp).map (Spec.keyTag E.sha256)).Nodup) :
    25 * ctxs.length ≤ resp.bucketContents.length := by
  obtain ⟨es, tail, hwf, hcont, hrest⟩ := C25_every_bucket E .hkdfSHA256 [] resp.bucketContents
  have key : ∀ ctx ∈ ctxs, (Spec.derived ctx resp).map (Spec.keyTag E.sha256) ∈ es.map fun e => some e.tag := by
    intro ctx hctx
    obtain ⟨status, m, err, h⟩ := hfound ctx hctx
    rcases (C25_finalize_iff ctx resp _ _ _).mp h with ⟨-, h⟩ | ⟨-, -, h⟩ | ⟨-, z, hz, hA⟩
    · cases h
    · cases h
    · rw [Spec.derived, hz, Option.map_some, Option.map_some]
      rw [← finalizeLoop_iff .hkdfSHA256, hcont, finalizeLoop_bucket E _ _ es hwf] at hA
      split at hA
      · rename_i e he
        have h1 := List.find?_some he
        exact List.mem_map.mpr ⟨e, List.mem_of_find?_eq_some he, by rw [of_decide_eq_true h1]⟩
      · rcases hrest with ⟨ht, -⟩ | ⟨header, body, len, hh, hl, ht, hb, -⟩
        · rw [finalizeLoop_end E _ _ tail 0 (by omega)] at hA
          cases hA
        · rw [ht, finalizeLoop_overrun _ _ header body len hh hl hb] at hA
          cases hA
  have hsub : ∀ t ∈ ctxs.map (fun ctx => (Spec.derived ctx resp).map (Spec.keyTag E.sha256)),
      t ∈ es.map fun e => some e.tag := by
    intro t ht
    obtain ⟨ctx, hctx, rfl⟩ := List.mem_map.mp ht
    exact key ctx hctx
  have hlen := (List.subperm_of_subset hdist hsub).length_le
  rw [List.length_map, List.length_map] at hlen
  have := bucket_length_ge es hwf
  rw [hcont, List.length_append]
  omega

/-- C75: a store filled under one key and served under another (a restart that generated a new key) answers
`NotInBreach` without any error, for every credential, in the store or not. The only exception would be a
coincidence of 20-byte tags: a stored credential of the same bucket whose tag under the old key is that of the
queried one under the new key, although the two OPRF outputs are hashes of different strings. -/
theorem C75_changed_key (key' : PrivateKey) (S : Suite) (hS : E.suites cfg.oprfSuite = some S)
    (hc : NewClient E cfg.toConfig = .ok c) (hs : NewServer E cfg = .ok s)
    (hs' : NewServer E { cfg with privateKey := key' } = .ok s')
    {kv : KV} {db : List Stored} (h : History E s kv db) (u p : Bytes) (r : ZMod c.suite.q) (hr : r ≠ 0)
    (hu : u.length ≤ 65536) (hp : p.length ≤ 65536) (h0 : 0 ≤ cfg.bucketIDBitSize) (h32 : cfg.bucketIDBitSize ≤ 32)
    (ht : Spec.tweak S key' ≠ 0) (hk : (cfg.privateKey.k : ZMod S.q) ≠ (key'.k : ZMod S.q))
    (hH : S.hashToElement (Spec.oprfInput E cfg.slowHasherID u p) ≠ 0) :
    exchange E c s' kv u p r = .ret NotInBreach none none ∨
    ∃ x ∈ db, s.bucketID E x.username = s.bucketID E u ∧
      let i := Spec.oprfInput E cfg.slowHasherID x.username x.password
      let j := Spec.oprfInput E cfg.slowHasherID u p
      let y := S.ser ((Spec.tweak S cfg.privateKey)⁻¹ * S.hashToElement i)
      let z := S.ser ((Spec.tweak S key')⁻¹ * S.hashToElement j)
      (i, y) ≠ (j, z) ∧ Spec.keyTag E.sha256 (S.finalizeHash i Spec.info y) =
        Spec.keyTag E.sha256 (S.finalizeHash j Spec.info z) := by
  have hsuite : s.suite = S ∧ s.privateKey = cfg.privateKey := by
    obtain ⟨slow, S', _, _, _, h1, _, rfl⟩ := newServer_ok hs
    rw [hS] at h1; injection h1 with h1; exact ⟨h1.symm, rfl⟩
  have hsuite' : s'.suite = S ∧ s'.privateKey = key' := by
    obtain ⟨slow, S', _, _, _, h1, _, rfl⟩ := newServer_ok hs'
    rw [show E.suites ({ cfg with privateKey := key' } : ServerConfig).oprfSuite = some S from hS] at h1
    injection h1 with h1; exact ⟨h1.symm, rfl⟩
  have hb : ∀ v, s'.bucketID E v = s.bucketID E v := fun v => by
    rw [← C14_same_bucket cfg c s hc hs v, ← C14_same_bucket { cfg with privateKey := key' } c s' hc hs' v]
  have hk1 : ∀ v w, entryKey E cfg s v w = Spec.oprf S cfg.privateKey (Spec.oprfInput E cfg.slowHasherID v w) := by
    intro v w; unfold entryKey; rw [hsuite.2, hsuite.1]
  have hk2 : ∀ v w, entryKey E { cfg with privateKey := key' } s' v w =
      Spec.oprf S key' (Spec.oprfInput E cfg.slowHasherID v w) := by
    intro v w; unfold entryKey; rw [hsuite'.2, hsuite'.1]
  rcases exchange_cases (cfg := { cfg with privateKey := key' }) hc hs' u p r with
    ⟨h1, -⟩ | ⟨h1, -⟩ | ⟨-, -, -, id, secret, h1, h2, h3⟩
  · dsimp only at h1; omega
  · rw [hsuite'.1, hsuite'.2] at h1; exact absurd h1 ht
  · rw [h3 kv, h2 hr, hk2, history_search hs h]
    split
    · exact .inl rfl
    · rename_i x hx
      right
      have hm := List.mem_of_find?_eq_some hx
      have hpx := List.find?_some hx
      obtain ⟨-, g2, g3⟩ := history_invariant hs h
      obtain ⟨hf, id', hid'⟩ := g2 x hm
      have ht0 : Spec.tweak S cfg.privateKey ≠ 0 := by
        have := g3 (List.ne_nil_of_mem hm)
        rwa [hsuite.1, hsuite.2] at this
      rw [inBucket_ok hid'] at hpx
      simp only [Bool.and_eq_true, beq_iff_eq, decide_eq_true_eq] at hpx
      refine ⟨x, hm, ?_, ?_, ?_⟩
      · rw [hid', ← hb, h1, BucketIDToHex_inj hpx.1]
      · intro he
        obtain ⟨e1, e2⟩ := Prod.mk.inj he
        rw [e1] at e2
        have e3 := congrArg S.de e2
        rw [S.de_ser, S.de_ser] at e3
        have e4 := inv_injective (mul_right_cancel₀ hH (Option.some.inj e3))
        exact hk (add_right_cancel e4)
      · have := hpx.2
        rw [hk1] at this
        exact this

/-! ## Concrete cases -/

open Example

/-- C75_forge: a client that asks for a credential nobody has stored is told that it is breached. -/
example : ∃ entry, ∀ r : ZMod client.suite.q, r ≠ 0 → ∃ req ctx,
    client.request ext (ascii "user") (ascii "pw") r = .ok (req, ctx) ∧
    ctx.finalize ext ⟨req.version, req.blindElement, entry ++ []⟩ = .ret InBreach (some (ascii "lie")) none := by
  obtain ⟨entry, -, h⟩ := C75_forge newClient_eq (ascii "user") (ascii "pw") (by decide) (by decide) (by decide)
    (by decide) 1 (ascii "lie") (by decide)
  refine ⟨entry, fun r hr => ?_⟩
  obtain ⟨req, ctx, h1, h2⟩ := h r hr
  exact ⟨req, ctx, h1, h2 []⟩

/-- C75_deny: the clients of that request, with an empty bucket. -/
example (r : ZMod client.suite.q) : ∃ req ctx, client.request ext (ascii "user") (ascii "pw") r = .ok (req, ctx) ∧
    ctx.finalize ext ⟨1, ctx.client.suite.ser 5, []⟩ = .ret NotInBreach none none := by
  obtain ⟨id, -, -, h⟩ := request_ok (E := ext) Example.cfg.toConfig client newClient_eq (ascii "user") (ascii "pw")
    (by decide) (by decide) (by decide) (by decide) r
  exact ⟨_, _, h, C75_deny _ 1 5 [] rfl (by decide)⟩

/-- C75_limited: the client of the first example, told a lie of 28 bytes. -/
example (r : ZMod client.suite.q) (hr : r ≠ 0) : ∃ (resp : ServerResponse) (ctx : ClientRequestContext),
    (∀ c ∈ [ctx], ∃ status m err, c.finalize ext resp = .ret status (some m) err) ∧
    25 ≤ resp.bucketContents.length := by
  obtain ⟨entry, -, h⟩ := C75_forge newClient_eq (ascii "user") (ascii "pw") (by decide) (by decide) (by decide)
    (by decide) 1 (ascii "lie") (by decide)
  obtain ⟨req, ctx, h1, h2⟩ := h r hr
  have h3 : ∀ c ∈ [ctx], ∃ status m err,
      c.finalize ext ⟨req.version, req.blindElement, entry ++ []⟩ = .ret status (some m) err := by
    intro c hc
    rw [List.mem_singleton.mp hc]
    exact ⟨_, _, _, h2 []⟩
  exact ⟨_, ctx, h3, C75_limited _ [ctx] h3 (List.nodup_singleton _)⟩

/-- C75_changed_key: the example store, served with key 9 instead of 7. -/
example (r : ZMod client.suite.q) (hr : r ≠ 0) : ∃ kv s', NewServer ext { Example.cfg with privateKey := ⟨9⟩ } = .ok s' ∧
    History ext server kv [⟨ascii "user", ascii "abc", 1, ascii "A"⟩, ⟨ascii "user", ascii "Abc", 2, ascii "A"⟩,
      ⟨ascii "user", [], 3, ascii "A"⟩] ∧
    exchange ext client s' kv (ascii "user") (ascii "abc") r = .ret NotInBreach none none := by
  obtain ⟨kv, -, hh⟩ := example_history
  have hs' : NewServer ext { Example.cfg with privateKey := ⟨9⟩ } = .ok { server with privateKey := ⟨9⟩ } := rfl
  refine ⟨kv, _, hs', hh, ?_⟩
  rcases C75_changed_key ⟨9⟩ toySuite rfl newClient_eq newServer_eq hs' hh (ascii "user") (ascii "abc") r hr
    (by decide) (by decide) (by decide) (by decide) (by decide +kernel) (by decide +kernel) (toy_hash_ne_zero _) with
    h | ⟨x, hx, -, -, h⟩
  · exact h
  · exfalso
    rcases List.mem_cons.mp hx with rfl | hx
    · revert h; decide +kernel
    rcases List.mem_cons.mp hx with rfl | hx
    · revert h; decide +kernel
    · rw [List.mem_singleton] at hx
      subst hx
      revert h; decide +kernel

end Migp.Props
