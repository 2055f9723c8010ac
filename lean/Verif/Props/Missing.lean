import Verif.Props.Http
import Verif.Props.ClientConfig
import Verif.Props.History
import Verif.Props.Witness
import Verif.Props.ServerJson
/-!
# C77: what every body stands for, and what a missing member means

`C50` and `C51` say what the server answers in terms of what the body decodes to, `C63` says what documents decode to.
Here both are put together: the answer to `/evaluate` for every body, in terms of the JSON grammar; and what happens
to requests and configurations that do not mention something.
-/
namespace Migp.Props
open Migp.Json Migp.Spec

variable {E : Ext} {cfg : ServerConfig} {s : Server}

/-- The request a body stands for, and whether it is an erroneous one. A member that is not there, or has no usable
value, stands for 0 or for the empty string. -/
def _root_.Migp.Spec.StandsFor (data : Bytes) (r : ClientRequest) (bad : Prop) : Prop :=
  (∃ ms, IsDocument data (.obj ms) ∧
    LastWins (ascii "version") (fun v (n : UInt32) => IsUint 4294967295 v n.toNat) ms 0 r.version ∧
    LastWins (ascii "bucketID") IsString ms [] r.bucketID ∧
    ((∀ m ∈ ms, SameName (ascii "blindElement") m.1 → ¬ MixedArray m.2) →
      LastWins (ascii "blindElement") IsBytes ms [] r.blindElement) ∧
    ByteField (ascii "blindElement") ms [] r.blindElement ∧
    (bad ↔ IllTyped (ascii "version") (fun v (n : UInt32) => IsUint 4294967295 v n.toNat) ms ∨
      IllTyped (ascii "bucketID") IsString ms ∨ ∃ m ∈ ms, SameName (ascii "blindElement") m.1 ∧ NotBytes m.2)) ∨
  ((∀ ms, ¬ IsDocument data (.obj ms)) ∧ r.version = 0 ∧ r.bucketID = [] ∧ r.blindElement = [] ∧
    (bad ↔ ¬ IsDocument data .null))

theorem standsFor (stale : Nat → Nat → UInt8) (data : Bytes) :
    StandsFor data (ClientRequest.unmarshalJSON stale data ClientRequest.zero).1
      ((ClientRequest.unmarshalJSON stale data ClientRequest.zero).2 = true) := by
  by_cases h : ∃ ms, IsDocument data (.obj ms)
  · obtain ⟨ms, h⟩ := h
    obtain ⟨h1, h2, h3⟩ := C63_request_fields stale data ClientRequest.zero ms h
    exact .inl ⟨ms, h, h1, h2, h3, C63_request_bytes stale data ClientRequest.zero ms h, C63_request_error stale data _ ms h⟩
  · have h' : ∀ ms, ¬ IsDocument data (.obj ms) := fun ms hm => h ⟨ms, hm⟩
    obtain ⟨h1, h2⟩ := C63_request_other stale data ClientRequest.zero h'
    refine .inr ⟨h', by rw [h1]; rfl, by rw [h1]; rfl, by rw [h1]; rfl, ?_⟩
    rw [← h2, Bool.not_eq_false]

/-- C77: the answer to a POST to `/evaluate`, for every body that could be read: the request that the body stands for
is put to `HandleRequest`, whether the body is erroneous or not. The status is 400 for an erroneous body, 500 for a
good one that `HandleRequest` refuses and 200 otherwise; the marshalled response goes out with status 200 and, behind
the error page, with status 400. -/
theorem C77_evaluate (s : Server) (kv : KV) (stale : Nat → Nat → UInt8) (data : Bytes) :
    ∃ w r bad, handleEvaluate s kv stale (some data) = .ok w ∧ StandsFor data r bad ∧
      ((∃ e, s.handleRequest r kv.get = .err e ∧
          (¬ bad → w.reply = ⟨500, errorHeaders, ascii "Internal Server Error\n"⟩) ∧
          (bad → w.reply = ⟨400, errorHeaders, ascii "Bad Request\nInternal Server Error\n"⟩)) ∨
       (∃ resp bytes, s.handleRequest r kv.get = .ok resp ∧ resp.marshalBinary = .ok bytes ∧
          (¬ bad → w.reply = ⟨200, ⟨some (ascii "application/octet-stream"), false⟩, bytes⟩) ∧
          (bad → w.reply = ⟨400, errorHeaders, ascii "Bad Request\n" ++ bytes⟩))) := by
  obtain ⟨w, hw, -, h⟩ := C50_evaluate s kv stale (some data)
  obtain ⟨-, h2, h3⟩ := h data rfl
  have hsf := standsFor stale data
  obtain ⟨r, bad, hd⟩ : ∃ r bad, ClientRequest.unmarshalJSON stale data ClientRequest.zero = (r, bad) :=
    ⟨_, _, rfl⟩
  rw [hd] at h2 h3 hsf
  dsimp only at h2 h3 hsf
  refine ⟨w, r, bad = true, hw, hsf, ?_⟩
  rcases handleRequest_kv_cases s r kv with ⟨resp, hr⟩ | ⟨e, hr⟩
  · right
    refine ⟨resp, _, hr, rfl, fun hb => ?_, fun hb => ?_⟩
    · obtain ⟨bytes, hm, he⟩ := h3 (Bool.not_eq_true _ ▸ hb) resp hr
      rw [he, ← Res.ok.inj hm]
    · subst hb
      obtain ⟨w', hw', -, h5⟩ := C51_evaluated_after_error s kv stale data r hd
      obtain rfl := Res.ok.inj (hw.symm.trans hw')
      obtain ⟨bytes, hm, he⟩ := h5 resp hr
      rw [he, ← Res.ok.inj hm]
  · left
    refine ⟨e, hr, fun hb => h2 (Bool.not_eq_true _ ▸ hb) e hr, fun hb => ?_⟩
    subst hb
    obtain ⟨w', hw', h4, -⟩ := C51_evaluated_after_error s kv stale data r hd
    obtain rfl := Res.ok.inj (hw.symm.trans hw')
    exact h4 e hr

/-- The text says nothing usable about a member: it is not an object, or no member of that name (up to case) has an
acceptable value. -/
def _root_.Migp.Spec.Silent {A : Type} (data : Bytes) (name : GoString) (acc : JVal → A → Prop) : Prop :=
  ∀ ms, IsDocument data (.obj ms) → ∀ m ∈ ms, SameName name m.1 → ¬ ∃ a, acc m.2 a

theorem lastWins_silent {A : Type} {name : GoString} {acc : JVal → A → Prop} {ms : List (GoString × JVal)}
    {old new : A} (h : LastWins name acc ms old new) (hs : ∀ m ∈ ms, SameName name m.1 → ¬ ∃ a, acc m.2 a) :
    new = old := by
  rcases h with ⟨before, k, v, after, rfl, hn, ha, -⟩ | ⟨-, h⟩
  · exact absurd ⟨_, ha⟩ (hs (k, v) (by simp) hn)
  · exact h

/-- C77: a request that does not say its version is refused by every server whose version is not 0, whatever else it
says: nothing but an error page comes back. -/
theorem C77_no_version (s : Server) (hv : s.version ≠ 0) (kv : KV) (stale : Nat → Nat → UInt8) (data : Bytes)
    (h : Silent data (ascii "version") (fun v (n : UInt32) => IsUint 4294967295 v n.toNat)) :
    ∃ w, handleEvaluate s kv stale (some data) = .ok w ∧
      (w.reply = ⟨500, errorHeaders, ascii "Internal Server Error\n"⟩ ∨
       w.reply = ⟨400, errorHeaders, ascii "Bad Request\nInternal Server Error\n"⟩) := by
  obtain ⟨w, r, bad, hw, hsf, h1⟩ := C77_evaluate s kv stale data
  refine ⟨w, hw, ?_⟩
  have hr : r.version = 0 := by
    rcases hsf with ⟨ms, hd, h2, -⟩ | ⟨-, h2, -⟩
    · exact lastWins_silent h2 (h ms hd)
    · exact h2
  rcases h1 with ⟨e, -, h2, h3⟩ | ⟨resp, bytes, h2, -⟩
  · by_cases hb : bad
    · exact .inr (h3 hb)
    · exact .inl (h2 hb)
  · obtain ⟨h3, -⟩ := (C17_ok_iff _ _ _ _).mp h2
    rw [hr] at h3
    exact absurd (UInt16.toNat_inj.mp (show s.version.toNat = (0 : UInt16).toNat from h3.symm)) hv

/-- C77: a request that does not name a bucket is not refused for that. What the body stands for is answered, with
status 200, exactly if it is not in error, has the version of the server and an element of the suite (and the key is
usable); the bucket in the answer is then empty, whatever has been stored: the reply is the version and the evaluated
element alone. -/
theorem C77_no_bucket (hs : NewServer E cfg = .ok s) {kv : KV} {db : List Stored} (hh : History E s kv db)
    (stale : Nat → Nat → UInt8) (data : Bytes) (h : Silent data (ascii "bucketID") IsString) :
    ∃ w r bad, handleEvaluate s kv stale (some data) = .ok w ∧ StandsFor data r bad ∧
      (w.reply.status = 200 ↔ ¬ bad ∧ r.version.toNat % 65536 = s.version.toNat ∧
        Spec.tweak s.suite s.privateKey ≠ 0 ∧ s.suite.de r.blindElement ≠ none) ∧
      (w.reply.status = 200 → ∃ g, s.suite.de r.blindElement = some g ∧
        w.reply.body = be32 r.version ++ s.suite.ser ((Spec.tweak s.suite s.privateKey)⁻¹ * g)) := by
  obtain ⟨w, r, bad, hw, hsf, h1⟩ := C77_evaluate s kv stale data
  have hr : r.bucketID = [] := by
    rcases hsf with ⟨ms, hd, -, h2, -⟩ | ⟨-, -, h2, -⟩
    · exact lastWins_silent h2 (h ms hd)
    · exact h2
  have hk : kv.get r.bucketID = .ok [] := by
    rw [hr, C19_only_canonical hs hh [] (fun h => absurd h.1 (by decide))]
  refine ⟨w, r, bad, hw, hsf, ?_⟩
  rcases h1 with ⟨e, he, h2, h3⟩ | ⟨resp, bytes, h2, hm, h3, h4⟩
  · have hno : w.reply.status ≠ 200 := by
      by_cases hb : bad
      · rw [h3 hb]; decide
      · rw [h2 hb]; decide
    refine ⟨⟨fun h => absurd h hno, fun ⟨_, hv, ht, hd⟩ => ?_⟩, fun h => absurd h hno⟩
    obtain ⟨g, hg⟩ := Option.ne_none_iff_exists'.mp hd
    have := (C17_ok_iff s r kv.get _).mpr ⟨hv, ht, by rw [hr]; exact ⟨by decide, by simp⟩, g, [], hg, hk, rfl⟩
    rw [he] at this
    cases this
  · obtain ⟨hv, ht, -, g, contents, hg, hk', rfl⟩ := (C17_ok_iff _ _ _ _).mp h2
    obtain rfl := Res.ok.inj (hk.symm.trans hk')
    by_cases hb : bad
    · have hno : w.reply.status ≠ 200 := by rw [h4 hb]; show 400 ≠ 200; decide
      exact ⟨⟨fun h => absurd h hno, fun h => absurd hb h.1⟩, fun h => absurd h hno⟩
    · refine ⟨⟨fun _ => ⟨hb, hv, ht, by rw [hg]; exact nofun⟩, fun _ => by rw [h3 hb]⟩, fun _ => ⟨g, hg, ?_⟩⟩
      rw [h3 hb]
      have := (Res.ok.inj hm).symm
      rwa [List.append_nil] at this

/-- C77: a configuration (for the client program, in a file or from the server) stands for 0 where it says nothing. In
particular a configuration that does not say `slowHasher` switches the slow hash off, one that does not say
`bucketIDBitSize` has a single bucket, and one that does not say `bucketHasher` or `bucketEncryptor` is refused by
`NewClient`. -/
theorem C77_config (stale : Nat → Nat → UInt8) (cfg : Config) (config : Option (Option Bytes)) (get : Transport)
    (h : clientConfig config get stale = some cfg) :
    ∃ ms, ((∃ data, config = some (some data) ∧ (IsDocument data (.obj ms) ∨ ms = [] ∧ IsDocument data .null)) ∨
        (config = none ∧ ∃ body, get = .reply 200 (some body) ∧
          (BeginsWithObject body ms ∨ ms = [] ∧ BeginsWithNull body))) ∧
      LastWins (ascii "version") (fun v (n : UInt16) => IsUint 65535 v n.toNat) ms 0 cfg.version ∧
      LastWins (ascii "bucketIDBitSize") IsInt ms 0 cfg.bucketIDBitSize ∧
      LastWins (ascii "bucketHasher") (fun v (n : UInt16) => IsUint 65535 v n.toNat) ms 0 cfg.bucketHasherID ∧
      LastWins (ascii "slowHasher") (fun v (n : UInt16) => IsUint 65535 v n.toNat) ms 0 cfg.slowHasherID ∧
      LastWins (ascii "bucketEncryptor") (fun v (n : UInt16) => IsUint 65535 v n.toNat) ms 0 cfg.bucketEncryptorID ∧
      LastWins (ascii "oprfSuite") (fun v (n : UInt16) => IsUint 65535 v n.toNat) ms 0 cfg.oprfSuite := by
  have hnil : ∀ {A : Type} (name : GoString) (acc : JVal → A → Prop) (a : A), LastWins name acc [] a a :=
    fun _ _ _ => .inr ⟨(fun m hm => by cases hm), rfl⟩
  rcases (C64_source config get stale cfg).mp h with ⟨data, hc, hd⟩ | ⟨hc, body, hb, hd⟩
  · by_cases ho : ∃ ms, IsDocument data (.obj ms)
    · obtain ⟨ms, ho⟩ := ho
      have := ((C63_config stale data Config.zero ms).1 ho).1
      rw [hd] at this
      exact ⟨ms, .inl ⟨data, hc, .inl ho⟩, this⟩
    · obtain ⟨this, hnull⟩ := C63_config_other stale data Config.zero fun ms hm => ho ⟨ms, hm⟩
      rw [hd] at this hnull
      dsimp only at this
      subst this
      exact ⟨[], .inl ⟨data, hc, .inr ⟨rfl, hnull.mp rfl⟩⟩, hnil _ _ _, hnil _ _ _, hnil _ _ _, hnil _ _ _, hnil _ _ _, hnil _ _ _⟩
  · by_cases ho : ∃ ms, BeginsWithObject body ms
    · obtain ⟨ms, ho⟩ := ho
      have := ((C63_config stale body Config.zero ms).2 ho).1
      rw [hd] at this
      exact ⟨ms, .inr ⟨hc, body, hb, .inl ho⟩, this⟩
    · have : cfg = Config.zero ∧ BeginsWithNull body := by
        unfold Config.decodeJSON decodeStruct at hd
        have hno : ∀ ms, parseFirst ⟨[], .value⟩ body ≠ some (.obj ms) := fun ms hm =>
          ho ⟨ms, ((C63_grammar body).2.2 ms).mp hm⟩
        have hbeg : ∀ v, parseFirst ⟨[], .value⟩ body = some v → ∃ w b rest, body = w ++ b ++ rest ∧ IsWs w ∧
            IsValue 10000 b v := fun v h => parseFirst_begins h
        revert hd hno hbeg
        cases parseFirst ⟨[], .value⟩ body with
        | none => intro hd; cases hd
        | some v =>
          intro hd hno hbeg
          cases v with
          | obj ms => exact absurd rfl (hno ms)
          | null => exact ⟨(Prod.mk.inj hd).1.symm, hbeg _ rfl⟩
          | _ => exact absurd (Prod.mk.inj hd).2 (by decide)
      obtain ⟨rfl, hnull⟩ := this
      exact ⟨[], .inr ⟨hc, body, hb, .inr ⟨rfl, hnull⟩⟩, hnil _ _ _, hnil _ _ _, hnil _ _ _, hnil _ _ _, hnil _ _ _, hnil _ _ _⟩

/-- C77: a client made from a configuration file that does not say `slowHasher` blinds the plain encoding of username
and password. -/
theorem C77_no_slow_hasher (stale : Nat → Nat → UInt8) (cfg : Config) (data : Bytes) (get : Transport)
    (h : clientConfig (some (some data)) get stale = some cfg)
    (hs : Silent data (ascii "slowHasher") (fun v (n : UInt16) => IsUint 65535 v n.toNat))
    (c : Client) (hc : NewClient E cfg = .ok c) (u p : Bytes) (r : ZMod c.suite.q) (req : ClientRequest)
    (ctx : ClientRequestContext) (hr : c.request E u p r = .ok (req, ctx)) :
    ctx.input = credentialW u p ∧ req.blindElement = c.suite.ser (r * c.suite.hashToElement (credentialW u p)) := by
  obtain ⟨ms, hms, -, -, -, h4, -⟩ := C77_config stale cfg _ get h
  have h0 : cfg.slowHasherID = 0 := by
    rcases hms with ⟨data', e, hd | ⟨rfl, -⟩⟩ | ⟨e, -⟩
    · cases e; exact lastWins_silent h4 (hs ms hd)
    · exact lastWins_silent h4 fun m hm => by cases hm
    · cases e
  have hp : ¬ (65536 < u.length ∨ 65536 < p.length ∨ cfg.bucketIDBitSize < 0 ∨ 32 < cfg.bucketIDBitSize) := by
    intro hx
    obtain ⟨q, hq⟩ := (C02_request_panics_iff cfg c hc u p r).1.mpr hx
    rw [hr] at hq; cases hq
  obtain ⟨id, -, -, h5⟩ := request_ok cfg c hc u p (by omega) (by omega) (by omega) (by omega) r
  rw [hr] at h5
  injection h5 with h5
  obtain ⟨h6, h7⟩ := Prod.mk.inj h5
  have e : oprfInput E cfg.slowHasherID u p = credentialW u p := by
    rw [h0]; rfl
  rw [h6, h7]
  dsimp only
  rw [e]
  exact ⟨rfl, rfl⟩

/-- C77: a client made from a configuration file that does not say `bucketIDBitSize` asks for bucket 00000000, whoever
it asks about. -/
theorem C77_no_bit_size (stale : Nat → Nat → UInt8) (cfg : Config) (data : Bytes) (get : Transport)
    (h : clientConfig (some (some data)) get stale = some cfg)
    (hs : Silent data (ascii "bucketIDBitSize") IsInt)
    (c : Client) (hc : NewClient E cfg = .ok c) (u p : Bytes) (r : ZMod c.suite.q) (req : ClientRequest)
    (ctx : ClientRequestContext) (hr : c.request E u p r = .ok (req, ctx)) : req.bucketID = ascii "00000000" := by
  obtain ⟨ms, hms, -, h4, -⟩ := C77_config stale cfg _ get h
  have h0 : cfg.bucketIDBitSize = 0 := by
    rcases hms with ⟨data', e, hd | ⟨rfl, -⟩⟩ | ⟨e, -⟩
    · cases e; exact lastWins_silent h4 (hs ms hd)
    · exact lastWins_silent h4 fun m hm => by cases hm
    · cases e
  have hp : ¬ (65536 < u.length ∨ 65536 < p.length ∨ cfg.bucketIDBitSize < 0 ∨ 32 < cfg.bucketIDBitSize) := by
    intro hx
    obtain ⟨q, hq⟩ := (C02_request_panics_iff cfg c hc u p r).1.mpr hx
    rw [hr] at hq; cases hq
  obtain ⟨id, h1, -, h5⟩ := request_ok cfg c hc u p (by omega) (by omega) (by omega) (by omega) r
  obtain ⟨id', h2, -, h3⟩ := C03_client_bucketID cfg c hc u (by omega) (by omega) (by omega)
  rw [h1] at h2
  obtain rfl := Res.ok.inj h2
  rw [h0] at h3
  have hid : id = 0 := UInt32.toNat_inj.mp (show id.toNat = 0 by
    have : id.toNat < 2 ^ (0 : Int).toNat := h3
    have e : 2 ^ (0 : Int).toNat = 1 := rfl
    omega)
  rw [hr] at h5
  injection h5 with h5
  rw [(Prod.mk.inj h5).1, hid]
  exact (by decide : BucketIDToHex 0 = ascii "00000000")

/-- C77: the same for a configuration of the server that was accepted: what it does not say is 0, and a key that it
does not give is the key that `Deserialize` makes of no bytes. -/
theorem C77_server_config (stale : Nat → Nat → UInt8) (data : Bytes) (ms : List (GoString × JVal))
    (h : IsDocument data (.obj ms)) (c : ServerConfig) (hc : ServerConfig.unmarshalJSON E stale data = .ok c) :
    LastWins (ascii "version") (fun v (n : UInt16) => IsUint 65535 v n.toNat) ms 0 c.version ∧
    LastWins (ascii "bucketIDBitSize") IsInt ms 0 c.bucketIDBitSize ∧
    LastWins (ascii "bucketHasher") (fun v (n : UInt16) => IsUint 65535 v n.toNat) ms 0 c.bucketHasherID ∧
    LastWins (ascii "slowHasher") (fun v (n : UInt16) => IsUint 65535 v n.toNat) ms 0 c.slowHasherID ∧
    LastWins (ascii "bucketEncryptor") (fun v (n : UInt16) => IsUint 65535 v n.toNat) ms 0 c.bucketEncryptorID ∧
    LastWins (ascii "oprfSuite") (fun v (n : UInt16) => IsUint 65535 v n.toNat) ms 0 c.oprfSuite ∧
    ((∀ m ∈ ms, ¬ SameName (ascii "privateKey") m.1) → E.deKey c.oprfSuite [] = some c.privateKey) := by
  obtain ⟨⟨h1, h2, h3, h4, h5, h6⟩, h7⟩ := (C63_server_config E stale data ms h).2 c hc
  refine ⟨h1, h2, h3, h4, h5, h6, fun hno => ?_⟩
  obtain ⟨k, hk, hd⟩ := h7 fun m hm hs => absurd hs (hno m hm)
  rw [lastWins_silent hk fun m hm hs => absurd hs (hno m hm)] at hd
  exact hd

/-! ## Concrete cases -/

/-- A text with one member says nothing about another. -/
theorem silent_of_parse {A : Type} {data : Bytes} {name : GoString} {acc : JVal → A → Prop}
    {ms : List (GoString × JVal)} (hp : parse data = some (.obj ms)) (hm : ∀ m ∈ ms, ¬ SameName name m.1) :
    Silent data name acc := by
  intro ms' hd m hmem hn
  have := ((C63_grammar data).1 _).mpr hd
  rw [hp] at this
  injection this with this
  injection this with this
  subst this
  exact absurd hn (hm m hmem)


/-- Members of a parsed object, as far as they are numbers or strings. -/
def flatMembers (o : Option JVal) : Option (List (GoString × Option (Bytes ⊕ GoString))) :=
  match o with
  | some (.obj ms) => some (ms.map fun m => (m.1, match m.2 with
      | .num lit => some (.inl lit)
      | .str x => some (.inr x)
      | _ => none))
  | _ => none

theorem flatMembers_some {o : Option JVal} {l : List (GoString × Option (Bytes ⊕ GoString))}
    (h : flatMembers o = some l) : ∃ ms, o = some (.obj ms) ∧ ms.map Prod.fst = l.map Prod.fst := by
  unfold flatMembers at h
  split at h
  · rename_i ms
    refine ⟨ms, rfl, ?_⟩
    injection h with h
    rw [← h, List.map_map]
    rfl
  · cases h

/-- No name of a parsed object is this one. -/
theorem silent_of_names {A : Type} {data : Bytes} {name : GoString} {acc : JVal → A → Prop}
    {l : List (GoString × Option (Bytes ⊕ GoString))} (h : flatMembers (parse data) = some l)
    (ha : ∀ c ∈ name, c.toNat < 128) (hn : ∀ k ∈ l.map Prod.fst, fold name ≠ fold k) : Silent data name acc := by
  obtain ⟨ms, hp, hm⟩ := flatMembers_some h
  exact silent_of_parse hp fun m hmem hx =>
    hn m.1 (by rw [← hm]; exact List.mem_map_of_mem hmem) ((sameName_iff name ha m.1).mp hx)

/-- C77_no_version: a request of another protocol, put to the example server. -/
example (kv : KV) (stale : Nat → Nat → UInt8) : ∃ w,
    handleEvaluate Example.server kv stale (some (ascii "{\"vers\":1,\"bucketID\":\"00\"}")) = .ok w ∧
      (w.reply = ⟨500, errorHeaders, ascii "Internal Server Error\n"⟩ ∨
       w.reply = ⟨400, errorHeaders, ascii "Bad Request\nInternal Server Error\n"⟩) :=
  C77_no_version Example.server (by decide) kv stale _
    (silent_of_names (l := [(ascii "vers", some (.inl (ascii "1"))), (ascii "bucketID", some (.inr (ascii "00")))])
      (by decide +kernel) (by decide) (by decide +kernel))

/-- C77_no_bucket: a request with nothing but a version and an element (the identity, encoded as one byte): after any history it is
answered with the version and the evaluated element alone. -/
example (kv : KV) (db : List Stored) (hh : History Example.ext Example.server kv db) (stale : Nat → Nat → UInt8) :
    ∃ w r bad, handleEvaluate Example.server kv stale (some (ascii "{\"version\":1,\"blindElement\":\"AA==\"}")) = .ok w ∧
      StandsFor (ascii "{\"version\":1,\"blindElement\":\"AA==\"}") r bad ∧
      (w.reply.status = 200 → ∃ g, Example.server.suite.de r.blindElement = some g ∧ w.reply.body = be32 r.version ++
        Example.server.suite.ser ((Spec.tweak Example.server.suite Example.server.privateKey)⁻¹ * g)) := by
  obtain ⟨w, r, bad, h1, h2, -, h3⟩ := C77_no_bucket Example.newServer_eq hh stale
    (ascii "{\"version\":1,\"blindElement\":\"AA==\"}")
    (silent_of_names (l := [(ascii "version", some (.inl (ascii "1"))), (ascii "blindElement", some (.inr (ascii "AA==")))])
      (by decide +kernel) (by decide) (by decide +kernel))
  exact ⟨w, r, bad, h1, h2, h3⟩

example : (match handleEvaluate Example.server newKVStore (fun _ _ => 0)
      (some (ascii "{\"version\":1,\"blindElement\":\"AA==\"}")) with
    | .ok w => decide (w.reply.status = 200 ∧ w.reply.body = [0, 0, 0, 1, 0])
    | _ => false) = true := by decide +kernel

/-- C77_config, C77_no_slow_hasher, C77_no_bit_size: a configuration with four members of six. -/
example (get : Transport) (u p : Bytes) (hu : u.length ≤ 65536) (hp : p.length ≤ 65536) :
    ∃ cfg c, clientConfig (some (some (ascii
        "{\"version\":1,\"bucketHasher\":1,\"bucketEncryptor\":1,\"oprfSuite\":3}"))) get (fun _ _ => 0) = some cfg ∧
      NewClient Example.ext cfg = .ok c ∧ ∀ r : ZMod c.suite.q, ∃ req ctx,
        c.request Example.ext u p r = .ok (req, ctx) ∧ req.bucketID = ascii "00000000" ∧
        ctx.input = credentialW u p := by
  have h : clientConfig (some (some (ascii
      "{\"version\":1,\"bucketHasher\":1,\"bucketEncryptor\":1,\"oprfSuite\":3}"))) get (fun _ _ => 0) =
      some ⟨1, 0, 1, 0, 1, 3⟩ := by
    have : Config.unmarshalJSON (fun _ _ => 0) (ascii
      "{\"version\":1,\"bucketHasher\":1,\"bucketEncryptor\":1,\"oprfSuite\":3}") Config.zero =
      (⟨1, 0, 1, 0, 1, 3⟩, false) := by decide +kernel
    unfold clientConfig
    dsimp only
    rw [this]
    rfl
  have hc : NewClient Example.ext ⟨1, 0, 1, 0, 1, 3⟩ =
      .ok { Example.client with bucketIDBitSize := 0, slowHasher := .null } := rfl
  refine ⟨_, _, h, hc, fun r => ?_⟩
  obtain ⟨id, -, -, hr⟩ := request_ok (E := Example.ext) _ _ hc u p hu hp (by decide) (by decide) r
  have hl : flatMembers (parse (ascii "{\"version\":1,\"bucketHasher\":1,\"bucketEncryptor\":1,\"oprfSuite\":3}")) =
    some [(ascii "version", some (.inl (ascii "1"))), (ascii "bucketHasher", some (.inl (ascii "1"))),
      (ascii "bucketEncryptor", some (.inl (ascii "1"))), (ascii "oprfSuite", some (.inl (ascii "3")))] := by
    decide +kernel
  exact ⟨_, _, hr,
    C77_no_bit_size _ _ _ get h (silent_of_names hl (by decide) (by decide +kernel)) _ hc u p r _ _ hr,
    (C77_no_slow_hasher _ _ _ get h (silent_of_names hl (by decide) (by decide +kernel)) _ hc u p r _ _ hr).1⟩

end Migp.Props
