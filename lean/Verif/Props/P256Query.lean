import Verif.Props.P256Hiding
import Verif.Props.Query
/-!
# C91: queries with the real libraries
-/
namespace Migp.Props
open P256 Spec Http

/-- No 33 bytes that begin with a zero encode a point. -/
theorem no_wireForm_zero (b : Bytes) (hb : b ≠ []) : ¬ ∃ P, WireForm P (0 :: b) := by
  rintro ⟨P, h⟩
  cases h with
  | compressed h =>
    cases h
    exact hb rfl

/-- C91: a blind of zero, or a credential that hashes to infinity, never makes for a wrong answer: the query ends with an error, whatever
the server's key and its store are. -/
theorem C91_infinity {cfg : ServerConfig} {c : Client} {s : Server} (hc : NewClient P256.ext cfg.toConfig = .ok c)
    (hs : NewServer P256.ext cfg = .ok s) (kv : KV) (stale : Nat → Nat → UInt8) (u p : Bytes) (rand : (S : Suite) → ZMod S.q)
    (hu : u.length ≤ 65536) (hp : p.length ≤ 65536) (h0 : 0 ≤ cfg.bucketIDBitSize) (h32 : cfg.bucketIDBitSize ≤ 32)
    (hz : rand c.suite = 0 ∨ P256.hashToElement (Spec.oprfInput P256.ext cfg.slowHasherID u p) = 0) :
    ∃ e, Query P256.ext cfg.toConfig (deliver s kv stale (ascii "/evaluate")) u p rand = .ret NotInBreach none (some e) := by
  obtain ⟨id, -, -, hreq⟩ := request_ok cfg.toConfig c hc u p hu hp h0 h32 (rand c.suite)
  obtain ⟨H, P, hH, hP, hcP, -, -⟩ := C91_request hc u p _ _ _ hreq
  have hP0 : P = 0 := by
    rw [hP]
    rcases hz with h | h
    · rw [h, ZMod.val_zero, zero_nsmul]
    · rw [hH, h, nsmul_zero]
  subst hP0
  have hform := WireForm.compressed hcP
  unfold Query
  rw [hc]
  dsimp only
  rw [hreq]
  dsimp only
  generalize hR : ClientRequest.mk _ _ _ = req at *
  obtain ⟨b, hx⟩ : ∃ b, hexDecode req.bucketID = some b := by
    rw [← hR]; unfold BucketIDToHex; exact ⟨_, hexDecode_hexEncode _⟩
  cases hresp : s.handleRequest req kv.get with
  | panic q => exact absurd ⟨q, hresp⟩ (C17_no_panic s req kv.get (by rintro ⟨q, h⟩; cases h))
  | err e =>
    rw [(deliver_evaluate s kv stale _ b hx).1 e hresp]
    exact ⟨_, rfl⟩
  | ok resp =>
    obtain ⟨P, Q, hw, -, -, -, -, hone, -⟩ := C91_reply hs _ _ _ hresp
    have he := hone (C91_encodings.1 _ _ _ hw hform)
    rw [(deliver_evaluate s kv stale _ b hx).2 resp _ hresp rfl]
    dsimp only
    rw [if_neg (by simp), he]
    obtain ⟨hnp, herr, hok⟩ := C20_unmarshal (be32 resp.version ++ [0] ++ resp.bucketContents)
    cases hum : ServerResponse.unmarshalBinary (be32 resp.version ++ [0] ++ resp.bucketContents) with
    | panic q => exact absurd ⟨q, hum⟩ hnp
    | err e => exact ⟨_, rfl⟩
    | ok resp' =>
      dsimp only
      have hl : 37 ≤ (be32 resp.version ++ [0] ++ resp.bucketContents).length := by
        by_contra hlt
        obtain ⟨e, h⟩ := herr.mpr (by omega)
        rw [hum] at h
        cases h
      obtain ⟨r, hr, -, hel, -⟩ := hok hl
      rw [hum] at hr
      cases hr
      have h4 : (be32 resp.version).length = 4 := rfl
      have hel' : resp'.evaluatedElement = 0 :: resp.bucketContents.take 32 := by
        rw [hel, List.append_assoc, List.drop_left' h4]
        rfl
      have hne : resp.bucketContents.take 32 ≠ [] := by
        intro e
        simp only [List.length_append, h4, List.length_singleton] at hl
        have := congrArg List.length e
        simp only [List.length_take, List.length_nil] at this
        omega
      by_cases hv : resp'.version.toNat % 65536 = c.version.toNat
      · refine ⟨_, (C91_finalize hc _ rfl resp' hv).1 ?_⟩
        rw [hel']
        exact no_wireForm_zero _ hne
      · unfold ClientRequestContext.finalize
        rw [if_pos (by
          intro e
          apply hv
          rw [← UInt16.toNat_inj, UInt16.toNat_ofNat'] at e
          exact e)]
        exact ⟨_, rfl⟩

/-- C91: what `Query` returns from a server with the real libraries, whatever the key, the credential and the blind: absent tag
collisions it is what looking the credential up in the list of what has been stored gives, if the key is usable, the blind is not zero and
the credential does not hash to infinity; and in each of these other cases it is an error. -/
theorem C91_query {cfg : ServerConfig} {c : Client} {s : Server} (hc : NewClient P256.ext cfg.toConfig = .ok c)
    (hs : NewServer P256.ext cfg = .ok s) {kv : KV} {db : List Stored} (h : History P256.ext s kv db)
    (stale : Nat → Nat → UInt8) (u p : Bytes) (rand : (S : Suite) → ZMod S.q)
    (hu : u.length ≤ 65536) (hp : p.length ≤ 65536) (h0 : 0 ≤ cfg.bucketIDBitSize) (h32 : cfg.bucketIDBitSize ≤ 32)
    (hno : ∀ x ∈ db, ¬ TagCollision P256.ext s x u p) :
    (¬ P256.q ∣ cfg.privateKey.k + scalarOf Spec.info ∧ rand c.suite ≠ 0 ∧
        P256.hashToElement (Spec.oprfInput P256.ext cfg.slowHasherID u p) ≠ 0 →
      Query P256.ext cfg.toConfig (deliver s kv stale (ascii "/evaluate")) u p rand =
        match lookup db u p with
        | none => .ret NotInBreach none none
        | some x => .ret (MetadataType.toBreachStatus x.flag) (some x.metadata) none) ∧
    (¬ (¬ P256.q ∣ cfg.privateKey.k + scalarOf Spec.info ∧ rand c.suite ≠ 0 ∧
        P256.hashToElement (Spec.oprfInput P256.ext cfg.slowHasherID u p) ≠ 0) →
      ∃ e, Query P256.ext cfg.toConfig (deliver s kv stale (ascii "/evaluate")) u p rand = .ret NotInBreach none (some e)) := by
  have hk : Spec.tweak s.suite s.privateKey = 0 ↔ P256.q ∣ cfg.privateKey.k + scalarOf Spec.info := by
    rw [scalar_eq hs, ← ZMod.natCast_eq_zero_iff, Nat.cast_add]
    rfl
  constructor
  · rintro ⟨hd, hr, hH⟩
    refine C54_ideal_lookup hc hs ?_ (fun e => hd (hk.mp e)) h stale u p rand hr ?_ hu hp h0 h32 hno
    · rw [(server_suite hs).1]; rfl
    · intro e
      rw [client_suite hc] at e
      exact hH ((EmbeddingLike.map_eq_zero_iff (f := P256.ops.dlog.symm)).mp e)
  · intro hd
    by_cases h1 : P256.q ∣ cfg.privateKey.k + scalarOf Spec.info
    · exact ⟨_, C54_unusable_key hc hs (hk.mpr h1) kv stale u p rand hu hp h0 h32⟩
    · refine C91_infinity hc hs kv stale u p rand hu hp h0 h32 ?_
      by_contra h2
      push Not at h2
      exact hd ⟨h1, h2⟩

/-- 33 bytes encode no other point than one that is not infinity, in the compressed form. -/
theorem wireForm_33 {P : W.Point} {b : Bytes} (h : WireForm P b) (hl : b.length = 33) : P ≠ 0 ∧ Compressed P b := by
  cases h with
  | compressed h =>
    refine ⟨?_, h⟩
    rintro rfl
    have := (C91_encodings.2.1 b).mp (.compressed h)
    rw [this] at hl
    cases hl
  | @full x y hn bx cy h1 h2 =>
    have e1 := h1.1
    have e2 := h2.1
    simp only [List.length_cons, List.length_append] at hl
    omega

/-- C91: over HTTP a client takes no other element than the compressed form of a point that is not infinity, whoever sends the reply:
in every other case the answer is an error without a status and metadata. -/
theorem C91_only_points (cfg : Config) (post : Bytes → Transport) (u p : Bytes) (rand : (S : Suite) → ZMod S.q) (st : BreachStatus)
    (md : Option Bytes) (err : Option Err) (h : Query P256.ext cfg post u p rand = .ret st md err)
    (hne : st ≠ NotInBreach ∨ md ≠ none ∨ err = none) :
    err = none ∧ ∃ c req ctx body P, NewClient P256.ext cfg = .ok c ∧ c.request P256.ext u p (rand c.suite) = .ok (req, ctx) ∧
      post req.marshalJSON = .reply 200 (some body) ∧ P ≠ 0 ∧ Compressed P ((body.drop 4).take 33) := by
  obtain ⟨he, c, req, ctx, body, resp, hc, hreq, hpost, hlen, hum, hfin⟩ := C54_only_from_reply cfg post u p rand st md err h hne
  obtain ⟨r, hr, -, hel, -⟩ := (C20_unmarshal body).2.2 hlen
  rw [hum] at hr
  cases hr
  have hctx : ctx.client = c := by
    have hnp := (C02_request_panics_iff cfg c hc u p (rand c.suite)).1
    rw [hreq] at hnp
    simp only [Res.isPanic_ok, false_iff] at hnp
    obtain ⟨id, -, -, h2⟩ := request_ok cfg c hc u p (by omega) (by omega) (by omega) (by omega) (rand c.suite)
    rw [hreq] at h2
    injection h2 with h2
    rw [(Prod.mk.inj h2).2]
  by_cases hv : resp.version.toNat % 65536 = c.version.toNat
  · by_cases hw : ∃ P, WireForm P resp.evaluatedElement
    · obtain ⟨P, hw⟩ := hw
      have := wireForm_33 hw (by rw [hel, List.length_take, List.length_drop]; omega)
      exact ⟨he, c, req, ctx, body, P, hc, hreq, hpost, this.1, hel ▸ this.2⟩
    · rw [(C91_finalize hc ctx hctx resp hv).1 hw] at hfin
      cases hfin
  · unfold ClientRequestContext.finalize at hfin
    rw [if_pos (by
      intro e
      apply hv
      rw [hctx, ← UInt16.toNat_inj, UInt16.toNat_ofNat'] at e
      exact e)] at hfin
    cases hfin

/-- The configuration of the example: no slow hash, key 7. -/
def quickCfg : ServerConfig := { DefaultServerConfig ⟨7⟩ with slowHasherID := 0 }

/-- C91_query, C91_infinity: a server and a client without a slow hash. One entry is stored, with status 1 and metadata "A"; asked for with
the blind 1 it is found, with the blind 0 there is an error. -/
theorem quick_example (stale : Nat → Nat → UInt8) : ∃ c s kv, NewClient P256.ext quickCfg.toConfig = .ok c ∧ NewServer P256.ext quickCfg = .ok s ∧
    History P256.ext s kv [⟨ascii "user", ascii "password1", 1, ascii "A"⟩] ∧
    (∀ rand : (S : Suite) → ZMod S.q, rand c.suite = 1 →
      Query P256.ext quickCfg.toConfig (deliver s kv stale (ascii "/evaluate")) (ascii "user") (ascii "password1") rand =
        .ret (MetadataType.toBreachStatus 1) (some (ascii "A")) none) ∧
    (∀ rand : (S : Suite) → ZMod S.q, rand c.suite = 0 →
      ∃ e, Query P256.ext quickCfg.toConfig (deliver s kv stale (ascii "/evaluate")) (ascii "user") (ascii "password1") rand =
        .ret NotInBreach none (some e)) := by
  obtain ⟨c, hc⟩ : (NewClient P256.ext quickCfg.toConfig).IsOk := (C12_newClient_iff _).mpr ⟨by decide, by decide, by decide, by
    show (P256.ext.suites oprfP256).isSome = true
    rw [suites_eq]; rfl⟩
  obtain ⟨s, hs⟩ : (NewServer P256.ext quickCfg).IsOk := (C12_newServer_iff _).mpr ⟨by decide, by decide, by decide, by
    show (P256.ext.suites oprfP256).isSome = true
    rw [suites_eq]; rfl, by
    show decide ((3 : UInt16) = oprfP256 ∧ 7 < P256.q) = true
    rw [decide_eq_true_eq]
    exact ⟨rfl, seven_lt⟩⟩
  have ht : Spec.tweak s.suite s.privateKey ≠ 0 :=
    fun e => bad_ne_7 ((scalar_zero seven_lt).mp ((scalar_eq hs).mp e))
  have hd : ¬ P256.q ∣ 7 + scalarOf Spec.info := by rw [scalarOf_info]; decide +kernel
  have he := (C05_encryptBucketEntry_iff _ s hs (ascii "user") (ascii "password1") 1 (ascii "A") _).mpr
    ⟨by decide, by decide, by decide, by decide, ht, rfl⟩
  obtain ⟨id, h1, -⟩ := (C03_server_bucketID _ s hs (ascii "user")).1 (by decide) (by decide) (by decide)
  have hh : History P256.ext s _ [⟨ascii "user", ascii "password1", 1, ascii "A"⟩] := .entry _ _ 1 _ _ id .start he h1
  have hq := fun rand => C91_query hc hs hh stale (ascii "user") (ascii "password1") rand (by decide) (by decide) (by decide) (by decide)
    (by
      intro x hx hcol
      rw [List.mem_singleton] at hx
      subst hx
      exact hcol.1 ⟨rfl, rfl⟩)
  refine ⟨c, s, _, hc, hs, hh, fun rand hr => ?_, fun rand hr => ?_⟩
  · rw [(hq rand).1 ⟨hd, ?_, example_hash_ne_zero⟩]
    · rfl
    · rw [hr]
      exact one_ne_zero
  · exact (hq rand).2 (fun h => h.2.1 hr)

end Migp.Props
