import Verif.Model.Http
import Verif.Props.Json
import Verif.Props.History
/-!
# C50-C52, C54, C59: the HTTP server and `Query`
-/
namespace Migp.Props
open Migp.Json Migp.Http

variable {E : Ext}

/-- The headers of an error page. -/
def errorHeaders : Headers := ⟨some (ascii "text/plain; charset=utf-8"), true⟩

/-- The store never fails, so handling a request against it does not panic. -/
theorem handleRequest_kv_cases (s : Server) (req : ClientRequest) (kv : KV) :
    (∃ resp, s.handleRequest req kv.get = .ok resp) ∨ (∃ e, s.handleRequest req kv.get = .err e) := by
  cases h : s.handleRequest req kv.get with
  | ok a => exact .inl ⟨a, rfl⟩
  | err e => exact .inr ⟨e, rfl⟩
  | panic p => exact absurd ⟨p, h⟩ (C17_no_panic s req kv.get (by unfold KV.get; simp))

/-- C50: the reply of `/evaluate` to every request, for every server, store and memory contents. The handler never
panics; and

* if the body cannot be read: 400 and an error page;
* if the body does not decode: 400, an error page, then more (see C51);
* if it decodes and `HandleRequest` refuses: 500 and an error page;
* if it decodes and `HandleRequest` answers: 200, `application/octet-stream`, and exactly the marshalled
  response. -/
theorem C50_evaluate (s : Server) (kv : KV) (stale : Nat → Nat → UInt8) (body : Option Bytes) :
    ∃ w, handleEvaluate s kv stale body = .ok w ∧
    (body = none → w.reply = ⟨400, errorHeaders, ascii "Bad Request\n"⟩) ∧
    ∀ data, body = some data →
      let d := ClientRequest.unmarshalJSON stale data ClientRequest.zero
      (d.2 = true → w.reply.status = 400 ∧ w.reply.headers = errorHeaders ∧
        ascii "Bad Request\n" <+: w.reply.body) ∧
      (d.2 = false → ∀ e, s.handleRequest d.1 kv.get = .err e →
        w.reply = ⟨500, errorHeaders, ascii "Internal Server Error\n"⟩) ∧
      (d.2 = false → ∀ resp, s.handleRequest d.1 kv.get = .ok resp →
        ∃ bytes, resp.marshalBinary = .ok bytes ∧
          w.reply = ⟨200, ⟨some (ascii "application/octet-stream"), false⟩, bytes⟩) := by
  cases body with
  | none => exact ⟨_, rfl, fun _ => rfl, (fun data e => by cases e)⟩
  | some data =>
    unfold handleEvaluate
    dsimp only
    obtain ⟨r, bad, hd⟩ : ∃ r bad, ClientRequest.unmarshalJSON stale data ClientRequest.zero = (r, bad) :=
      ⟨_, _, rfl⟩
    rw [hd]
    dsimp only
    rcases handleRequest_kv_cases s r kv with ⟨resp, h⟩ | ⟨e, h⟩
    · rw [h]
      refine ⟨_, rfl, (fun e => by cases e), ?_⟩
      rintro data' e
      cases e
      rw [hd]
      dsimp only
      refine ⟨?_, ?_, ?_⟩
      · rintro rfl
        exact ⟨rfl, rfl, ⟨_, rfl⟩⟩
      · rintro rfl e h'
        rw [h] at h'; cases h'
      · rintro rfl resp' h'
        rw [h] at h'; cases h'
        exact ⟨_, rfl, rfl⟩
    · rw [h]
      refine ⟨_, rfl, (fun e => by cases e), ?_⟩
      rintro data' e
      cases e
      rw [hd]
      dsimp only
      refine ⟨?_, ?_, ?_⟩
      · rintro rfl
        exact ⟨rfl, rfl, ⟨ascii "Internal Server Error\n", rfl⟩⟩
      · rintro rfl e' h'
        rfl
      · rintro rfl resp' h'
        rw [h] at h'; cases h'

/-- C51: what follows the error page when the body does not decode. Whatever was decoded before (and after) the
error is evaluated, and the answer is appended to the error page. -/
theorem C51_evaluated_after_error (s : Server) (kv : KV) (stale : Nat → Nat → UInt8) (data : Bytes)
    (r : ClientRequest) (hd : ClientRequest.unmarshalJSON stale data ClientRequest.zero = (r, true)) :
    ∃ w, handleEvaluate s kv stale (some data) = .ok w ∧
    (∀ e, s.handleRequest r kv.get = .err e →
      w.reply = ⟨400, errorHeaders, ascii "Bad Request\nInternal Server Error\n"⟩) ∧
    (∀ resp, s.handleRequest r kv.get = .ok resp → ∃ bytes, resp.marshalBinary = .ok bytes ∧
      w.reply = ⟨400, errorHeaders, ascii "Bad Request\n" ++ bytes⟩) := by
  unfold handleEvaluate
  dsimp only
  rw [hd]
  dsimp only
  rcases handleRequest_kv_cases s r kv with ⟨resp, h⟩ | ⟨e, h⟩
  · rw [h]
    refine ⟨_, rfl, (fun e h' => by cases h'), fun resp' h' => ?_⟩
    cases h'
    exact ⟨_, rfl, rfl⟩
  · rw [h]
    exact ⟨_, rfl, (fun e' h' => rfl), (fun resp' h' => by cases h')⟩

/-- The body of a request with one more member: `"version":true`. -/
def illTyped (r : ClientRequest) : Bytes :=
  encObject [(ascii "version", natDec r.version.toNat), (ascii "bucketID", quote r.bucketID),
    (ascii "blindElement", encBytes r.blindElement), (ascii "version", ascii "true")]

example : illTyped ⟨1, ascii "00f0a", [0, 255, 128, 7]⟩ =
    ascii "{\"version\":1,\"bucketID\":\"00f0a\",\"blindElement\":\"AP+ABw==\",\"version\":true}" := by
  decide +kernel

/-- `"version":true` -/
def badVersion : Member := ⟨ascii "version", ascii "true", .bool true⟩

/-- It does not decode, but everything is in place when the error is reported. -/
theorem illTyped_decodes (r r0 : ClientRequest) (stale : Nat → Nat → UInt8) (hb : validUTF8 r.bucketID = true) :
    ClientRequest.unmarshalJSON stale (illTyped r) r0 = (r, true) := by
  have hm : illTyped r = encObject ((requestMembers r ++
      [badVersion]).map (fun m : Member => (m.name, m.text))) := rfl
  have hs := setMembers_request r r0 stale [(ascii "version", .bool true)]
  unfold ClientRequest.unmarshalJSON unmarshalStruct
  rw [hm, parse_object _ (by simp) (by
    intro m hm
    rcases List.mem_append.mp hm with hm | hm
    · exact requestMembers_ok r m hm
    · rw [List.mem_singleton.mp hm]; exact ⟨by dsimp only [badVersion]; decide, Reads.true⟩)]
  dsimp only [setStruct]
  rw [List.map_append]
  refine hs.trans ?_
  rw [(toValidUTF8_eq_iff _).mpr hb]
  show ((_ : ClientRequest), (true || false)) = _
  rw [Bool.or_false]
  refine Prod.ext ?_ rfl
  show ({ r with version := UInt32.ofNat r.version.toNat } : ClientRequest) = r
  simp

/-- C51: every request the server would answer can be sent as a body that does not decode: the reply has
status 400 and an error page, followed by the complete answer. -/
theorem C51_error_page_leaks (s : Server) (kv : KV) (stale : Nat → Nat → UInt8) (r : ClientRequest)
    (resp : ServerResponse) (h : s.handleRequest r kv.get = .ok resp) :
    (ClientRequest.unmarshalJSON stale (illTyped r) ClientRequest.zero).2 = true ∧
    ∃ w bytes, handleEvaluate s kv stale (some (illTyped r)) = .ok w ∧
      resp.marshalBinary = .ok bytes ∧
      w.reply = ⟨400, errorHeaders, ascii "Bad Request\n" ++ bytes⟩ := by
  obtain ⟨-, -, hx, -⟩ := (C17_ok_iff _ _ _ _).mp h
  have hb : validUTF8 r.bucketID = true := by
    have := (hexDecode_isSome_iff r.bucketID).mpr hx
    obtain ⟨b, hb⟩ := Option.isSome_iff_exists.mp this
    exact validUTF8_ascii (hexDecode_ascii _ _ hb)
  have hd := illTyped_decodes r ClientRequest.zero stale hb
  obtain ⟨w, h1, -, h2⟩ := C51_evaluated_after_error s kv stale _ r hd
  obtain ⟨bytes, h3, h4⟩ := h2 resp h
  exact ⟨by rw [hd], w, bytes, h1, h3, h4⟩

/-- C51: 'a body that fails to decode produces only an error page' is false, for every server whose key works. -/
theorem C51_only_error_page_false (s : Server) (kv : KV) (ht : Spec.tweak s.suite s.privateKey ≠ 0) :
    ¬ ∀ stale data, (ClientRequest.unmarshalJSON stale data ClientRequest.zero).2 = true →
      ∃ w, handleEvaluate s kv stale (some data) = .ok w ∧
        (w.reply.body = ascii "Bad Request\n" ∨
          w.reply.body = ascii "Bad Request\nInternal Server Error\n") := by
  intro hall
  -- the key 0 element is not needed: any element with a long enough bucket ID will do
  let r : ClientRequest := ⟨UInt32.ofNat s.version.toNat, ascii "00", s.suite.ser 1⟩
  have hok : ∃ resp, s.handleRequest r kv.get = .ok resp :=
    ⟨_, (C17_ok_iff _ _ _ _).mpr ⟨by
      have := s.version.toNat_lt
      show (UInt32.ofNat s.version.toNat).toNat % 65536 = s.version.toNat
      rw [UInt32.toNat_ofNat']; omega, ht, ⟨by dsimp only [r]; decide, by dsimp only [r]; decide⟩, 1, _,
        s.suite.de_ser 1, rfl, rfl⟩⟩
  obtain ⟨resp, hresp⟩ := hok
  obtain ⟨hbad, w, bytes, h1, h2, h3⟩ := C51_error_page_leaks s kv (fun _ _ => 0) r resp hresp
  obtain ⟨w', h1', h4⟩ := hall _ _ hbad
  rw [h1] at h1'
  cases h1'
  rw [h3] at h4
  have hver : bytes.take 2 = [0, 0] := by
    obtain ⟨-, -, -, g, bc, -, -, rfl⟩ := (C17_ok_iff _ _ _ _).mp hresp
    unfold ServerResponse.marshalBinary at h2
    cases h2
    have := s.version.toNat_lt
    have e : (UInt32.ofNat s.version.toNat).toNat = s.version.toNat := by
      rw [UInt32.toNat_ofNat']; omega
    show (be32 (UInt32.ofNat s.version.toNat) ++ _ ++ _).take 2 = _
    unfold be32
    rw [e, show s.version.toNat / 16777216 = 0 by omega, show s.version.toNat / 65536 = 0 by omega]
    rfl
  rcases h4 with h4 | h4
  · have : bytes = [] := by
      have := congrArg List.length h4
      simp at this
      exact this
    rw [this] at hver; cases hver
  · have : bytes = ascii "Internal Server Error\n" := by
      have e : ascii "Bad Request\nInternal Server Error\n" =
          ascii "Bad Request\n" ++ ascii "Internal Server Error\n" := by decide
      rw [e] at h4
      exact List.append_cancel_left h4
    rw [this] at hver
    revert hver
    decide

/-! ## C52: the configuration endpoint -/

/-- C52: the reply of `/config` is the public configuration and nothing else: two servers with the same
public configuration give the same reply, whatever their keys. -/
theorem C52_config_only (s s' : Server) (h : s.config.toConfig = s'.config.toConfig) :
    (handleConfig s).reply = (handleConfig s').reply ∧ (handleConfig s).reply.status = 200 := by
  unfold handleConfig
  rw [h]
  exact ⟨rfl, rfl⟩

/-- C52: a client that decodes the reply of a server built from `cfg` obtains `cfg` without the key. -/
theorem C52_client_gets_config (cfg : ServerConfig) (s : Server) (h : NewServer E cfg = .ok s)
    (hb : IsGoInt cfg.bucketIDBitSize) (stale : Nat → Nat → UInt8) (c0 : Config) :
    (handleConfig s).reply.status = 200 ∧
    Config.decodeJSON stale (handleConfig s).reply.body c0 = (cfg.toConfig, false) := by
  refine ⟨rfl, ?_⟩
  have hcfg : s.config = cfg := C13_config cfg s h
  show Config.decodeJSON stale ([] ++ (s.config.toConfig.marshalJSON ++ [10])) c0 = _
  rw [hcfg, List.nil_append]
  exact (C53_config cfg.toConfig c0 hb stale).2 [10]

/-- Two servers with different keys and the same reply. -/
example : ∃ s s', NewServer Example.ext (DefaultServerConfig ⟨7⟩) = .ok s ∧
    NewServer Example.ext (DefaultServerConfig ⟨8⟩) = .ok s' ∧ s.privateKey ≠ s'.privateKey ∧
    s.config.toConfig = s'.config.toConfig := ⟨_, _, rfl, rfl, by decide, rfl⟩

/-! ## C54: `Query` -/

/-- C54: a reply with another status than 200, a failing connection or an unreadable body: `Query` returns
`NotInBreach`, no metadata and an error (or panics before it sends anything). -/
theorem C54_bad_reply (cfg : Config) (post : Bytes → Transport)
    (hpost : ∀ b, post b = .failed ∨ (∃ st body, post b = .reply st body ∧ (st ≠ 200 ∨ body = none)))
    (u p : Bytes) (rand : (S : Suite) → ZMod S.q) :
    (∃ e, Query E cfg post u p rand = .ret NotInBreach none (some e)) ∨
    ∃ q, Query E cfg post u p rand = .panic q := by
  unfold Query
  cases NewClient E cfg with
  | panic q => exact .inr ⟨q, rfl⟩
  | err e => exact .inl ⟨e, rfl⟩
  | ok c =>
    dsimp only
    cases c.request E u p (rand c.suite) with
    | panic q => exact .inr ⟨q, rfl⟩
    | err e => exact .inl ⟨e, rfl⟩
    | ok rc =>
      obtain ⟨req, ctx⟩ := rc
      dsimp only
      rcases hpost req.marshalJSON with h | ⟨st, body, h, hs⟩
      · rw [h]; exact .inl ⟨_, rfl⟩
      · rw [h]
        dsimp only
        by_cases h200 : st = 200
        · rw [if_neg (by simpa using h200)]
          rcases hs with hs | rfl
          · exact absurd h200 hs
          · exact .inl ⟨_, rfl⟩
        · rw [if_pos h200]; exact .inl ⟨_, rfl⟩

/-- C54: whatever the network answers, `Query` never returns metadata together with an error, and
metadata or a status other than `NotInBreach` only from a reply with status 200 and a body of at least 37 bytes. -/
theorem C54_only_from_reply (cfg : Config) (post : Bytes → Transport) (u p : Bytes)
    (rand : (S : Suite) → ZMod S.q) (st : BreachStatus) (md : Option Bytes) (err : Option Err)
    (h : Query E cfg post u p rand = .ret st md err) (hne : st ≠ NotInBreach ∨ md ≠ none ∨ err = none) :
    err = none ∧ ∃ c req ctx body resp, NewClient E cfg = .ok c ∧
      c.request E u p (rand c.suite) = .ok (req, ctx) ∧ post req.marshalJSON = .reply 200 (some body) ∧
      37 ≤ body.length ∧ ServerResponse.unmarshalBinary body = .ok resp ∧
      ctx.finalize E resp = .ret st md none := by
  have dead : ∀ e, Out.ret 0 none (some e) = .ret st md err → False := by
    intro e h
    cases h
    rcases hne with h | h | h
    · exact h rfl
    · exact h rfl
    · cases h
  unfold Query at h
  cases hc : NewClient E cfg with
  | panic q => rw [hc] at h; cases h
  | err e => rw [hc] at h; exact absurd h (dead e)
  | ok c =>
    rw [hc] at h
    dsimp only at h
    cases hr : c.request E u p (rand c.suite) with
    | panic q => rw [hr] at h; cases h
    | err e => rw [hr] at h; exact absurd h (dead e)
    | ok rc =>
      obtain ⟨req, ctx⟩ := rc
      rw [hr] at h
      dsimp only at h
      cases hp : post req.marshalJSON with
      | failed => rw [hp] at h; exact absurd h (dead _)
      | reply status body =>
        rw [hp] at h
        dsimp only at h
        by_cases h200 : status = 200
        · rw [if_neg (by simpa using h200)] at h
          cases body with
          | none => exact absurd h (dead _)
          | some body =>
            dsimp only at h
            cases hu : ServerResponse.unmarshalBinary body with
            | panic q => rw [hu] at h; cases h
            | err e => rw [hu] at h; exact absurd h (dead e)
            | ok resp =>
              rw [hu] at h
              dsimp only at h
              have hl : 37 ≤ body.length := by
                by_contra hn
                have := (C20_unmarshal body).2.1.mpr (by omega)
                rw [hu] at this
                simp at this
              have herr : err = none := by
                cases err with
                | none => rfl
                | some e =>
                  exfalso
                  obtain ⟨st', md', err', g1, g2, -⟩ := C25_error_safe ctx resp (E := E)
                  rw [h] at g1
                  cases g1
                  obtain ⟨hst, hmd⟩ := g2 (by simp)
                  subst hst hmd
                  rcases hne with h | h | h
                  · exact h rfl
                  · exact h rfl
                  · cases h
              subst herr
              exact ⟨rfl, c, req, ctx, body, resp, rfl, hr, h200 ▸ hp, hl, hu, h⟩
        · rw [if_pos h200] at h; exact absurd h (dead _)

end Migp.Props
