import Verif.Spec.Wire
import Verif.Props.BucketView
import Verif.Props.Missing
import Verif.Props.JsonText
import Verif.Props.Traffic
/-!
# C85: the protocol on the wire
-/
namespace Migp.Props
open Spec Json

/-! ## Bucket identifiers -/

theorem hexValue_lt {c : UInt8} (h : IsLowerHex c) : hexValue c < 16 := by
  unfold IsLowerHex at h
  unfold hexValue
  split
  · omega
  · split <;> omega

theorem hexValue_inj {c d : UInt8} (hc : IsLowerHex c) (hd : IsLowerHex d) (h : hexValue c = hexValue d) : c = d := by
  unfold IsLowerHex at hc hd
  unfold hexValue at h
  apply UInt8.toNat_inj.mp
  split at h <;> split at h <;> (try split at h) <;> (try split at h) <;> omega

theorem natOfHex_snoc (s : GoString) (c : UInt8) : natOfHex (s ++ [c]) = 16 * natOfHex s + hexValue c := by
  unfold natOfHex
  rw [List.foldl_append]
  rfl

theorem natOfHex_inj (s t : GoString) (hl : s.length = t.length) (hs : ∀ c ∈ s, IsLowerHex c) (ht : ∀ c ∈ t, IsLowerHex c)
    (h : natOfHex s = natOfHex t) : s = t := by
  induction hn : s.length generalizing s t with
  | zero =>
    rw [List.eq_nil_of_length_eq_zero hn, List.eq_nil_of_length_eq_zero (hl.symm.trans hn)]
  | succ n ih =>
    have hs0 : s ≠ [] := by intro e; rw [e] at hn; cases hn
    have ht0 : t ≠ [] := by intro e; rw [hl, e] at hn; cases hn
    rw [← List.dropLast_concat_getLast hs0] at h hs ⊢
    rw [← List.dropLast_concat_getLast ht0] at h ht ⊢
    rw [natOfHex_snoc, natOfHex_snoc] at h
    have h1 := hs (s.getLast hs0) (by simp)
    have h2 := ht (t.getLast ht0) (by simp)
    have l1 := hexValue_lt h1
    have l2 := hexValue_lt h2
    have e1 : hexValue (s.getLast hs0) = hexValue (t.getLast ht0) := by omega
    have e2 : natOfHex s.dropLast = natOfHex t.dropLast := by omega
    rw [ih s.dropLast t.dropLast (by rw [List.length_dropLast, List.length_dropLast, hl])
      (fun c hc => hs c (List.mem_append_left _ hc)) (fun c hc => ht c (List.mem_append_left _ hc)) e2
      (by rw [List.length_dropLast, hn]; rfl), hexValue_inj h1 h2 e1]

theorem isBucketID (id : UInt32) : IsBucketID (BucketIDToHex id) id.toNat :=
  ⟨(C04_canonical id).1, (C04_canonical id).2.1, (C04_canonical id).2.2.1⟩

theorem _root_.Migp.Spec.IsBucketID.unique {s t : GoString} {n : Nat} (hs : IsBucketID s n) (ht : IsBucketID t n) : s = t :=
  natOfHex_inj s t (hs.length.trans ht.length.symm) hs.lower ht.lower (hs.value.trans ht.value.symm)

theorem natOfHex_lt (s : GoString) (hs : ∀ c ∈ s, IsLowerHex c) : natOfHex s < 16 ^ s.length := by
  induction hn : s.length generalizing s with
  | zero => rw [List.eq_nil_of_length_eq_zero hn]; decide
  | succ n ih =>
    have hs0 : s ≠ [] := by intro e; rw [e] at hn; cases hn
    rw [← List.dropLast_concat_getLast hs0] at hs ⊢
    rw [natOfHex_snoc]
    have h1 := hexValue_lt (hs (s.getLast hs0) (by simp))
    have := ih s.dropLast (fun c hc => hs c (List.mem_append_left _ hc)) (by rw [List.length_dropLast, hn]; rfl)
    rw [Nat.pow_succ]
    omega

/-- A bucket identifier in this form is what the library writes for the number. -/
theorem _root_.Migp.Spec.IsBucketID.hex {s : GoString} {n : Nat} (h : IsBucketID s n) :
    n < 2 ^ 32 ∧ s = BucketIDToHex (UInt32.ofNat n) := by
  have hlt : n < 2 ^ 32 := by
    have := natOfHex_lt s h.lower
    rw [h.length, h.value] at this
    exact this
  refine ⟨hlt, h.unique ?_⟩
  have := isBucketID (UInt32.ofNat n)
  rwa [UInt32.toNat_ofNat', Nat.mod_eq_of_lt hlt] at this

/-! ## Reading a request -/

theorem hasMember_lastWins {A : Type} {name : GoString} {acc : JVal → A → Prop} {ms : List (GoString × JVal)} {old new a : A}
    (h : HasMember name (fun v => acc v a) ms) (hu : ∀ v b, acc v a → acc v b → b = a) (hl : LastWins name acc ms old new) :
    new = a := by
  obtain ⟨⟨m, hm, hn⟩, hall⟩ := h
  rcases hl with ⟨before, k, v, after, e, hk, hv, -⟩ | ⟨hno, -⟩
  · exact hu v new (hall (k, v) (by rw [e]; simp) hk) hv
  · exact absurd ⟨a, hall m hm hn⟩ (hno m hm hn)

theorem hasMember_not_illTyped {A : Type} {name : GoString} {acc : JVal → A → Prop} {ms : List (GoString × JVal)} {a : A}
    (h : HasMember name (fun v => acc v a) ms) : ¬ IllTyped name acc ms := by
  rintro ⟨m, hm, hn, -, hno⟩
  exact hno ⟨a, h.2 m hm hn⟩

theorem isUint_unique {max : Nat} {v : JVal} {n m : Nat} (h1 : IsUint max v n) (h2 : IsUint max v m) : m = n := by
  obtain ⟨l1, rfl, d1, -⟩ := h1
  obtain ⟨l2, e, d2, -⟩ := h2
  cases e
  rw [← ((isDecimal_iff _ _).mp d1).2.2, ← ((isDecimal_iff _ _).mp d2).2.2]

theorem isBytes_unique {v : JVal} {a b : Bytes} (h1 : IsBytes v a) (h2 : IsBytes v b) : b = a := by
  rcases h1 with ⟨rfl, rfl⟩ | ⟨s, rfl, h1⟩ | ⟨es, rfl, h1⟩
  · rcases h2 with ⟨-, rfl⟩ | ⟨s, e, -⟩ | ⟨es, e, -⟩
    · rfl
    · cases e
    · cases e
  · rcases h2 with ⟨e, -⟩ | ⟨s', e, h2⟩ | ⟨es, e, -⟩
    · cases e
    · cases e
      have := ((b64Decode_iff _ _).mpr h1).symm.trans ((b64Decode_iff _ _).mpr h2)
      exact (Option.some.inj this).symm
    · cases e
  · rcases h2 with ⟨e, -⟩ | ⟨s', e, -⟩ | ⟨es', e, h2⟩
    · cases e
    · cases e
    · cases e
      induction h1 generalizing b with
      | nil => cases h2; rfl
      | cons hx _ ih =>
        cases h2 with
        | cons hy hr => rw [ih hr, UInt8.toNat_inj.mp (isUint_unique hx hy)]

theorem isBytes_not_notBytes {v : JVal} {b : Bytes} (h : IsBytes v b) : ¬ NotBytes v := fun hn => hn.1 ⟨b, h⟩

theorem isBytes_not_mixed {v : JVal} {b : Bytes} (h : IsBytes v b) : ¬ MixedArray v := by
  rintro ⟨es, rfl, e, he, hno⟩
  rcases h with ⟨e, -⟩ | ⟨s', e, -⟩ | ⟨es', e', h2⟩
  · cases e
  · cases e
  · cases e'
    clear * - h2 he hno
    induction h2 with
    | nil => cases he
    | cons hx _ ih =>
      rcases List.mem_cons.mp he with rfl | he
      · exact hno ⟨_, hx⟩
      · exact ih he

/-- The request that a body stands for. -/
theorem request_read (stale : Nat → Nat → UInt8) {data : Bytes} {ms : List (GoString × JVal)} {version n : Nat} {element : Bytes}
    (hd : IsDocument data (.obj ms)) (hr : IsRequest ms version n element) :
    version < 2 ^ 32 ∧ n < 2 ^ 32 ∧ ClientRequest.unmarshalJSON stale data ClientRequest.zero =
      (⟨UInt32.ofNat version, BucketIDToHex (UInt32.ofNat n), element⟩, false) := by
  have hver : version < 2 ^ 32 := by
    obtain ⟨⟨m, hm, hn⟩, hall⟩ := hr.version
    obtain ⟨_, _, _, h⟩ := hall m hm hn
    omega
  have hnn : n < 2 ^ 32 := by
    obtain ⟨⟨m, hm, hn⟩, hall⟩ := hr.bucket
    obtain ⟨s, -, h⟩ := hall m hm hn
    exact h.hex.1
  have hV : HasMember (ascii "version") (fun v => IsUint 4294967295 v (UInt32.ofNat version).toNat) ms := by
    rw [UInt32.toNat_ofNat', Nat.mod_eq_of_lt hver]
    exact hr.version
  have hB : HasMember (ascii "bucketID") (fun v => IsString v (BucketIDToHex (UInt32.ofNat n))) ms := by
    refine ⟨hr.bucket.1, fun m hm hn => ?_⟩
    obtain ⟨s, hs, h⟩ := hr.bucket.2 m hm hn
    rw [← h.hex.2]
    exact hs
  obtain ⟨h1, h2, h3⟩ := C63_request_fields stale data ClientRequest.zero ms hd
  have herr : ¬ (ClientRequest.unmarshalJSON stale data ClientRequest.zero).2 = true := by
    rw [C63_request_error stale data _ ms hd]
    rintro (h | h | ⟨m, hm, hn, h⟩)
    · exact hasMember_not_illTyped (acc := fun v (n : UInt32) => IsUint 4294967295 v n.toNat) hV h
    · exact hasMember_not_illTyped hB h
    · exact isBytes_not_notBytes (hr.element.2 m hm hn) h
  have e1 := hasMember_lastWins (acc := fun v (n : UInt32) => IsUint 4294967295 v n.toNat) hV
    (fun v b ha hb => UInt32.toNat_inj.mp (isUint_unique ha hb)) h1
  have e2 := hasMember_lastWins hB (fun v b ha hb => by
    unfold IsString at ha hb
    exact (Json.JVal.str.inj (ha.symm.trans hb)).symm) h2
  have e3 := hasMember_lastWins hr.element (fun v b ha hb => isBytes_unique ha hb)
    (h3 (fun m hm hn => isBytes_not_mixed (hr.element.2 m hm hn)))
  refine ⟨hver, hnn, ?_⟩
  generalize ClientRequest.unmarshalJSON stale data ClientRequest.zero = d at *
  obtain ⟨⟨a, b, c⟩, bad⟩ := d
  dsimp only at e1 e2 e3 herr
  rw [e1, e2, e3, Bool.not_eq_true] at *
  rw [herr]

/-! ## The server -/

section
variable {E : Ext} {cfg : ServerConfig} {s : Server}

theorem len32_be32 {n : Nat} (h : n < 2 ^ 32) : be32 (UInt32.ofNat n) = len32 n := be32_ofNat n h

/-- The entries of a bucket, by number. -/
theorem filter_number (hs : NewServer E cfg = .ok s) {kv : KV} {db : List Stored} (h : History E s kv db) {n : Nat}
    (hn : n < 2 ^ 32) :
    db.filter (fun x => s.bucketID E x.username = .ok (UInt32.ofNat n)) =
      db.filter (fun x => bucketNumber E cfg.bucketIDBitSize.toNat x.username = n) := by
  obtain ⟨-, h2, -⟩ := history_invariant hs h
  apply List.filter_congr
  intro x hx
  obtain ⟨id, hid⟩ := (h2 x hx).2
  obtain ⟨g1, g2, -⟩ := C03_server_bucketID cfg s hs x.username
  rw [hid] at g2
  simp only [Res.isPanic_ok, false_iff] at g2
  obtain ⟨id', hid', hnum, -⟩ := g1 (by omega) (by omega) (by omega)
  rw [hid] at hid'
  cases hid'
  rw [hid, ← hnum, decide_eq_decide]
  constructor
  · intro e
    rw [Res.ok.inj e, UInt32.toNat_ofNat', Nat.mod_eq_of_lt hn]
  · intro e
    rw [← e, UInt32.ofNat_toNat]

/-- C85: what the server sends back. Whoever posts a document with the members of a request, with the version of the server
(modulo 2^16) and the encoding of a group element `g`, gets in one reply: the version of the request, the element
multiplied by the inverse of the tweaked key, and the masked entries of the bucket. -/
theorem C85_server (hs : NewServer E cfg = .ok s) (ht : tweak s.suite cfg.privateKey ≠ 0) {kv : KV} {db : List Stored}
    (h : History E s kv db) (stale : Nat → Nat → UInt8) {data : Bytes} {ms : List (GoString × JVal)} {version n : Nat}
    {element : Bytes} {g : ZMod s.suite.q} (hd : IsDocument data (.obj ms)) (hr : IsRequest ms version n element)
    (hv : version % 65536 = cfg.version.toNat) (hg : s.suite.de element = some g) :
    ∃ w, serve s kv stale (ascii "/evaluate") (some data) = some (.ok w) ∧
      w.reply = ⟨200, ⟨some (ascii "application/octet-stream"), false⟩,
        len32 version ++ s.suite.ser ((tweak s.suite cfg.privateKey)⁻¹ * g) ++
          maskedBucket (fun c => hkdfPad E.sha256 (oprf s.suite cfg.privateKey (oprfInput E cfg.slowHasherID c.1 c.2)))
            (db.filter (fun x => bucketNumber E cfg.bucketIDBitSize.toNat x.username = n))⟩ := by
  obtain ⟨h1, h2, h3⟩ := request_read stale hd hr
  obtain ⟨w, hw, -, hc⟩ := C50_evaluate s kv stale (some data)
  obtain ⟨-, -, hc⟩ := hc data rfl
  rw [h3] at hc
  dsimp only at hc
  have hsv : s.version = cfg.version := by
    obtain ⟨slow', S', _, _, _, _, _, rfl⟩ := newServer_ok hs; rfl
  have hb := C84_bucket hs h (UInt32.ofNat n)
  rw [filter_number hs h h2] at hb
  rw [← server_key hs] at ht hb ⊢
  have hresp := (C17_ok_iff s ⟨UInt32.ofNat version, BucketIDToHex (UInt32.ofNat n), element⟩ kv.get _).mpr
    ⟨by rw [hsv, ← hv, UInt32.toNat_ofNat', Nat.mod_eq_of_lt h1], ht, ⟨by rw [(C04_canonical _).1], fun c hc => .inl ((C04_canonical _).2.1 c hc)⟩, g, _, hg, hb, rfl⟩
  obtain ⟨bytes, hm, he⟩ := hc rfl _ hresp
  refine ⟨w, ?_, ?_⟩
  · rw [← hw]
    unfold serve
    rw [((C59_routes _).1).mpr rfl]
  · rw [he, ← Res.ok.inj hm]
    dsimp only
    rw [len32_be32 h1]
end

/-! ## The client -/

section
variable {E : Ext} {cfg : Config} {c : Client}

theorem unmarshal_shortReply (data : Bytes) (h : data.length < 37) :
    ServerResponse.unmarshalBinary data = .err (shortReply data.length) := by
  unfold ServerResponse.unmarshalBinary
  match data, h with
  | [], _ => rfl
  | [_], _ => rfl
  | [_, _], _ => rfl
  | [_, _, _], _ => rfl
  | a :: b :: c :: d :: rest, h =>
    simp only [readUint32, beUint32, Res.ok_bind]
    have hr : rest.length < 33 := by simp at h; omega
    by_cases h0 : rest = []
    · subst h0; rfl
    · have h2 : bufferRead rest defaultElementLength =
          .ok (rest.length, rest.take defaultElementLength, rest.drop defaultElementLength) := by
        unfold bufferRead
        rw [if_neg (by rintro ⟨h, _⟩; exact h0 h), Nat.min_eq_right]
        simp only [defaultElementLength]; omega
      have hp : 0 < rest.length := List.length_pos_of_ne_nil h0
      rw [h2]
      simp only [Res.ok_bind]
      rw [if_pos (by simp only [defaultElementLength]; omega)]
      unfold shortReply
      rw [if_neg (by simp only [List.length_cons]; omega), if_neg (by simp only [List.length_cons]; omega)]

/-- A reply that is long enough, in its parts. -/
theorem reply_parts (data : Bytes) (h : 37 ≤ data.length) :
    ∃ v z contents, v < 2 ^ 32 ∧ z.length = 33 ∧ data = len32 v ++ z ++ contents := by
  obtain ⟨v, el, bc, h1, h2, -⟩ := split_message data h
  refine ⟨v.toNat, el, bc, v.toNat_lt, h1, ?_⟩
  rw [h2, List.append_assoc, ← len32_be32 v.toNat_lt, UInt32.ofNat_toNat]

theorem unmarshal_parts {v : Nat} {z contents : Bytes} (hv : v < 2 ^ 32) (hz : z.length = 33) :
    ServerResponse.unmarshalBinary (len32 v ++ z ++ contents) = .ok ⟨UInt32.ofNat v, z, contents⟩ := by
  rw [List.append_assoc, ← len32_be32 hv]
  exact unmarshal_eq _ _ _ hz

theorem parts_unique {v v' : Nat} {z z' contents contents' : Bytes} (hv : v < 2 ^ 32) (hv' : v' < 2 ^ 32) (hz : z.length = 33)
    (hz' : z'.length = 33) (h : len32 v ++ z ++ contents = len32 v' ++ z' ++ contents') :
    v = v' ∧ z = z' ∧ contents = contents' := by
  rw [List.append_assoc, List.append_assoc] at h
  obtain ⟨h1, h2⟩ := List.append_inj h rfl
  obtain ⟨h3, h4⟩ := List.append_inj h2 (hz.trans hz'.symm)
  exact ⟨len32_inj hv hv' h1, h3, h4⟩

/-- `Finalize` in terms of the reply. -/
theorem finalize_understands (ctx : ClientRequestContext) {body : Bytes} {resp : ServerResponse}
    (hresp : ServerResponse.unmarshalBinary body = .ok resp) (st : BreachStatus) (md : Option Bytes) (err : Option Err) :
    ctx.finalize E resp = .ret st md err ↔
      Understands ctx.client.suite E.sha256 ctx.client.version.toNat ctx.input ctx.blind (.reply 200 (some body)) st md err := by
  have h37 : 37 ≤ body.length := by
    by_contra hn
    rw [unmarshal_shortReply body (by omega)] at hresp
    cases hresp
  obtain ⟨v, z, contents, hv, hz, rfl⟩ := reply_parts body h37
  have hlen : 37 ≤ (len32 v ++ z ++ contents).length := h37
  rw [unmarshal_parts hv hz] at hresp
  rw [← Res.ok.inj hresp, C25_finalize_iff]
  dsimp only
  have hmod : (UInt32.ofNat v).toNat = v := by rw [UInt32.toNat_ofNat', Nat.mod_eq_of_lt hv]
  rw [hmod]
  constructor
  · rintro (⟨h1, h2⟩ | ⟨h1, h2, h3⟩ | ⟨h1, g, h2, h3⟩)
    · cases h2; exact .version hv hz h1
    · cases h3; exact .element hv hz h1 h2
    · exact .answer hv hz h1 h2 h3
  · intro h
    generalize hb : len32 v ++ z ++ contents = b at h hlen
    cases h with
    | status h => exact absurd rfl h
    | short h => omega
    | version hv' hz' h =>
      obtain ⟨rfl, rfl, rfl⟩ := parts_unique hv hv' hz hz' hb
      exact .inl ⟨h, rfl⟩
    | element hv' hz' h hd =>
      obtain ⟨rfl, rfl, rfl⟩ := parts_unique hv hv' hz hz' hb
      exact .inr (.inl ⟨h, hd, rfl⟩)
    | answer hv' hz' h hd ha =>
      obtain ⟨rfl, rfl, rfl⟩ := parts_unique hv hv' hz hz' hb
      exact .inr (.inr ⟨h, _, hd, ha⟩)

/-- What `Query` sends, and what it makes of the reply. -/
theorem query_wire (hc : NewClient E cfg = .ok c) (u p : Bytes) (hu : u.length ≤ 65536) (hp : p.length ≤ 65536)
    (h0 : 0 ≤ cfg.bucketIDBitSize) (h32 : cfg.bucketIDBitSize ≤ 32) (rand : (S : Suite) → ZMod S.q) :
    ∃ id, id.toNat = bucketNumber E cfg.bucketIDBitSize.toNat u ∧
      ∃ body, body = ClientRequest.marshalJSON ⟨UInt32.ofNat cfg.version.toNat, BucketIDToHex id,
        c.suite.ser (rand c.suite * c.suite.hashToElement (oprfInput E cfg.slowHasherID u p))⟩ ∧
      (∀ net before, ((queryTalk E cfg u p rand).run net before).1 = before ++ [.evaluate body]) ∧
      ∀ post st md err, Query E cfg post u p rand = .ret st md err ↔
        Understands c.suite E.sha256 cfg.version.toNat (oprfInput E cfg.slowHasherID u p) (rand c.suite) (post body) st md err := by
  obtain ⟨id, -, hid, hreq⟩ := request_ok cfg c hc u p hu hp h0 h32 (rand c.suite)
  refine ⟨id, hid, _, rfl, fun net before => ?_, fun post st md err => ?_⟩
  · rw [queryTalk_run]
    unfold sentBody
    rw [hc]
    dsimp only
    rw [hreq]
    rfl
  · have hv : c.version = cfg.version := by
      obtain ⟨slow, S, _, _, h3, _, rfl⟩ := newClient_ok hc
      rfl
    unfold Query
    rw [hc]
    dsimp only
    rw [hreq]
    dsimp only
    generalize ClientRequest.marshalJSON _ = body
    cases post body with
    | failed =>
      constructor
      · intro h; cases h; exact .noReply
      · intro h; cases h; rfl
    | reply status b =>
      dsimp only
      by_cases hst : status = 200
      · subst hst
        rw [if_neg (by simp)]
        cases b with
        | none =>
          constructor
          · intro h; cases h; exact .noBody
          · intro h
            cases h with
            | status h => exact absurd rfl h
            | noBody => rfl
        | some b =>
          dsimp only
          by_cases h37 : b.length < 37
          · rw [unmarshal_shortReply b h37]
            have hnot : ∀ v z contents, z.length = 33 → (len32 v ++ z ++ contents).length < 37 → False := by
              intro v z contents hz h
              rw [List.length_append, List.length_append, hz] at h
              have : (len32 v).length = 4 := rfl
              omega
            constructor
            · intro h; cases h; exact .short h37
            · intro h
              cases h with
              | status h => exact absurd rfl h
              | short h => rfl
              | version hv' hz' h => exact (hnot _ _ _ hz' h37).elim
              | element hv' hz' h hd => exact (hnot _ _ _ hz' h37).elim
              | answer hv' hz' h hd ha => exact (hnot _ _ _ hz' h37).elim
          · obtain ⟨resp, hresp, -⟩ := (C20_unmarshal b).2.2 (by omega)
            rw [hresp]
            dsimp only
            have := finalize_understands (E := E) ⟨c, oprfInput E cfg.slowHasherID u p, rand c.suite⟩ hresp st md err
            rw [← hv]
            exact this
      · rw [if_pos hst]
        constructor
        · intro h; cases h; exact .status hst
        · intro h
          cases h with
          | status _ => rfl
          | _ => exact absurd rfl hst

theorem not_same {a b : GoString} (ha : ∀ c ∈ a, c.toNat < 128) (h : fold a ≠ fold b) : ¬ SameName a b :=
  fun hs => h ((sameName_iff a ha b).mp hs)

theorem canonical_isBase64 {text b : Bytes} (h : CanonicalBase64 text b) : IsBase64 text b := by
  obtain ⟨n, h⟩ := h
  refine ⟨List.replicate n false, ?_⟩
  have hf : text.filter (fun c => c ≠ 10 ∧ c ≠ 13) = text := by
    rw [List.filter_eq_self]
    obtain ⟨chars, sextets, k, rfl, h2, -⟩ := h
    have hall : ∀ c ∈ base64Alphabet, c ≠ 10 ∧ c ≠ 13 := by decide +kernel
    intro c hc
    rcases List.mem_append.mp hc with hc | hc
    · have : c ∈ base64Alphabet := by
        clear * - h2 hc
        induction h2 with
        | nil => cases hc
        | cons hx _ ih =>
          rcases List.mem_cons.mp hc with rfl | hc
          · exact List.mem_of_getElem? hx
          · exact ih hc
      simpa using hall c this
    · rw [List.eq_of_mem_replicate hc]; decide
  rw [hf]
  exact h

/-- The three members of a request of the client. -/
theorem isRequest_members {version bucket element : GoString} {v n : Nat} {b : Bytes} (hv : IsDecimal version v)
    (hmax : v ≤ 4294967295) (hn : IsBucketID bucket n) (hb : CanonicalBase64 element b) :
    IsRequest [(ascii "version", .num version), (ascii "bucketID", .str bucket), (ascii "blindElement", .str element)] v n b := by
  have n1 : ¬ SameName (ascii "version") (ascii "bucketID") := not_same (by decide) (by decide +kernel)
  have n2 : ¬ SameName (ascii "version") (ascii "blindElement") := not_same (by decide) (by decide +kernel)
  have n3 : ¬ SameName (ascii "bucketID") (ascii "version") := not_same (by decide) (by decide +kernel)
  have n4 : ¬ SameName (ascii "bucketID") (ascii "blindElement") := not_same (by decide) (by decide +kernel)
  have n5 : ¬ SameName (ascii "blindElement") (ascii "version") := not_same (by decide) (by decide +kernel)
  have n6 : ¬ SameName (ascii "blindElement") (ascii "bucketID") := not_same (by decide) (by decide +kernel)
  have e1 : SameName (ascii "version") (ascii "version") := (sameName_iff _ (by decide) _).mpr rfl
  have e2 : SameName (ascii "bucketID") (ascii "bucketID") := (sameName_iff _ (by decide) _).mpr rfl
  have e3 : SameName (ascii "blindElement") (ascii "blindElement") := (sameName_iff _ (by decide) _).mpr rfl
  refine ⟨⟨⟨_, List.mem_cons_self, e1⟩, ?_⟩, ⟨⟨_, List.mem_cons_of_mem _ List.mem_cons_self, e2⟩, ?_⟩,
    ⟨⟨_, List.mem_cons_of_mem _ (List.mem_cons_of_mem _ List.mem_cons_self), e3⟩, ?_⟩⟩
  all_goals
    intro m hm hs
    simp only [List.mem_cons, List.not_mem_nil, or_false] at hm
  · rcases hm with rfl | rfl | rfl
    · exact ⟨_, rfl, hv, hmax⟩
    · exact absurd hs n1
    · exact absurd hs n2
  · rcases hm with rfl | rfl | rfl
    · exact absurd hs n3
    · exact ⟨_, rfl, hn⟩
    · exact absurd hs n4
  · rcases hm with rfl | rfl | rfl
    · exact absurd hs n5
    · exact absurd hs n6
    · exact .inr (.inl ⟨_, rfl, canonical_isBase64 hb⟩)

theorem replaced_hex {id : UInt32} {t : GoString} (h : Replaced (BucketIDToHex id) t) : BucketIDToHex id = t := by
  rw [← (C53_replacement _ _).mpr h]
  exact ((toValidUTF8_eq_iff _).mpr (validUTF8_ascii (hexDecode_ascii _ _ (hexDecode_hexEncode (be32 id))))).symm

/-- C85: what the client sends and what it makes of the reply, exactly. It sends one message, a document with the three members of a
request: the configured version in decimal, the number of the bucket in eight lower-case hexadecimal digits, and the
encoding, in canonical base64, of the hashed credential multiplied by the blind. It then returns what `Understands` says of what comes back. -/
theorem C85_client (hc : NewClient E cfg = .ok c) (u p : Bytes) (hu : u.length ≤ 65536) (hp : p.length ≤ 65536)
    (h0 : 0 ≤ cfg.bucketIDBitSize) (h32 : cfg.bucketIDBitSize ≤ 32) (rand : (S : Suite) → ZMod S.q) :
    ∃ body version bucket element,
      IsDocument body (.obj [(ascii "version", .num version), (ascii "bucketID", .str bucket), (ascii "blindElement", .str element)]) ∧
      IsDecimal version cfg.version.toNat ∧ IsBucketID bucket (bucketNumber E cfg.bucketIDBitSize.toNat u) ∧
      CanonicalBase64 element (c.suite.ser (rand c.suite * c.suite.hashToElement (oprfInput E cfg.slowHasherID u p))) ∧
      (∀ net before, ((queryTalk E cfg u p rand).run net before).1 = before ++ [.evaluate body]) ∧
      ∀ post st md err, Query E cfg post u p rand = .ret st md err ↔
        Understands c.suite E.sha256 cfg.version.toNat (oprfInput E cfg.slowHasherID u p) (rand c.suite) (post body) st md err := by
  obtain ⟨id, hid, body, hb, h1, h2⟩ := query_wire hc u p hu hp h0 h32 rand
  obtain ⟨version, bucket, element, d1, d2, d3, d4⟩ := C69_request ⟨UInt32.ofNat cfg.version.toNat, BucketIDToHex id,
        c.suite.ser (rand c.suite * c.suite.hashToElement (oprfInput E cfg.slowHasherID u p))⟩
  rw [← hb] at d1
  dsimp only at d2 d3 d4
  refine ⟨body, version, bucket, element, d1, ?_, ?_, d4, h1, h2⟩
  · have := cfg.version.toNat_lt
    rw [UInt32.toNat_ofNat', Nat.mod_eq_of_lt (by omega)] at d2
    exact d2
  · rw [← hid, ← (replaced_hex d3)]
    exact isBucketID id
end

/-! ## Any client with the server -/

section
variable {E : Ext} {cfg : ServerConfig} {c : Client} {s : Server}

/-- A client understands a reply in at most one way. -/
theorem understands_unique (hc : NewClient E cfg.toConfig = .ok c) {input : Bytes} {r : ZMod c.suite.q} {b : Bytes}
    {st st' : BreachStatus} {md md' : Option Bytes} {err err' : Option Err} (hb : 37 ≤ b.length)
    (h : Understands c.suite E.sha256 cfg.version.toNat input r (.reply 200 (some b)) st md err)
    (h' : Understands c.suite E.sha256 cfg.version.toNat input r (.reply 200 (some b)) st' md' err') :
    st = st' ∧ md = md' ∧ err = err' := by
  obtain ⟨resp, hresp, -⟩ := (C20_unmarshal b).2.2 hb
  have hv : c.version = cfg.version := by
    obtain ⟨slow, S, _, _, h3, _, rfl⟩ := newClient_ok hc
    rfl
  rw [← hv] at h h'
  have e1 := (finalize_understands (E := E) ⟨c, input, r⟩ hresp st md err).mpr h
  have e2 := (finalize_understands (E := E) ⟨c, input, r⟩ hresp st' md' err').mpr h'
  rw [e1] at e2
  cases e2
  exact ⟨rfl, rfl, rfl⟩

/-- C85: any client gets the answer. Somebody else's client, which posts a document with the members of a request for the credential
(`u`, `p`), with the version of the server, the bucket of `u` and the encoding of the hashed credential multiplied by a
blind `r` of its own, and understands the reply as it should, gets what looking the credential up in the list of all stored
credentials gives (if no stored credential collides with it). -/
theorem C85_any_client (hc : NewClient E cfg.toConfig = .ok c) (hs : NewServer E cfg = .ok s) (hlen : c.suite.elemLen = 33)
    (ht : tweak s.suite s.privateKey ≠ 0) {kv : KV} {db : List Stored} (h : History E s kv db) (stale : Nat → Nat → UInt8)
    (u p : Bytes) (hu : u.length ≤ 65536) (hp : p.length ≤ 65536) (h0 : 0 ≤ cfg.bucketIDBitSize) (h32 : cfg.bucketIDBitSize ≤ 32)
    (r : ZMod c.suite.q) (hr : r ≠ 0) (he : c.suite.hashToElement (oprfInput E cfg.slowHasherID u p) ≠ 0)
    (hno : ∀ x ∈ db, ¬ TagCollision E s x u p)
    {data : Bytes} {ms : List (GoString × JVal)} {version : Nat} (hd : IsDocument data (.obj ms))
    (hm : IsRequest ms version (bucketNumber E cfg.bucketIDBitSize.toNat u)
      (c.suite.ser (r * c.suite.hashToElement (oprfInput E cfg.slowHasherID u p))))
    (hv : version % 65536 = cfg.version.toNat) :
    ∃ w, serve s kv stale (ascii "/evaluate") (some data) = some (.ok w) ∧
      ∀ st md err, Understands c.suite E.sha256 cfg.version.toNat (oprfInput E cfg.slowHasherID u p) r
          (.reply w.reply.status (some w.reply.body)) st md err ↔
        (st, md, err) = match lookup db u p with
          | none => (NotInBreach, none, none)
          | some x => (MetadataType.toBreachStatus x.flag, some x.metadata, none) := by
  have hS : s.suite = c.suite := by
    obtain ⟨slow, S, h1, h2, h3, h4, h5, rfl⟩ := newServer_ok hs
    obtain ⟨slow', S', g1, g2, g3, g4, rfl⟩ := newClient_ok hc
    rw [h4] at g4
    exact Option.some.inj g4
  have hkey := server_key hs
  -- the same exchange, by the client of the library
  obtain ⟨rand, hrand⟩ : ∃ rand : (S : Suite) → ZMod S.q, rand c.suite = r := by
    classical
    exact ⟨fun S => if h : S = c.suite then h ▸ r else 0, by simp⟩
  obtain ⟨body, ver, bucket, element, d1, d2, d3, d4, -, hq⟩ :=
    C85_client hc u p hu hp h0 h32 rand
  rw [hrand] at d4 hq
  have hideal := C54_ideal_lookup hc hs (hS ▸ hlen) ht h stale u p rand
    (by rw [hrand]; exact hr) he hu hp h0 h32 hno
  rw [hkey] at ht
  have hv0 : cfg.version.toNat % 65536 = cfg.version.toNat := Nat.mod_eq_of_lt cfg.version.toNat_lt
  have hmax : cfg.version.toNat ≤ 4294967295 := by have := cfg.version.toNat_lt; omega
  have hvlt : version < 2 ^ 32 := (request_read stale hd hm).1
  generalize hz : r * c.suite.hashToElement (oprfInput E cfg.slowHasherID u p) = z at *
  have hz0 : z ≠ 0 := by rw [← hz]; exact mul_ne_zero hr he
  have hde : s.suite.de (c.suite.ser z) = some (hS ▸ z) := by
    clear * - hS
    obtain ⟨_, _, _, _, _, _, _, _⟩ := s
    dsimp only at hS
    subst hS
    exact c.suite.de_ser z
  obtain ⟨w0, hw0, hr0⟩ := C85_server hs ht h stale d1 (isRequest_members d2 hmax d3 d4) hv0 hde
  obtain ⟨w, hw, hr1⟩ := C85_server hs ht h stale hd hm hv hde
  have hel : (s.suite.ser ((tweak s.suite cfg.privateKey)⁻¹ * (hS ▸ z))).length = 33 := by
    have hne : (hS ▸ z : ZMod s.suite.q) ≠ 0 := by
      clear * - hS hz0
      obtain ⟨_, _, _, _, _, _, _, _⟩ := s
      dsimp only at hS
      subst hS
      exact hz0
    rw [s.suite.ser_len _ (mul_ne_zero (inv_ne_zero ht) hne), hS, hlen]
  generalize s.suite.ser ((tweak s.suite cfg.privateKey)⁻¹ * (hS ▸ z)) = el at hr0 hr1 hel
  generalize maskedBucket _ _ = contents at hr0 hr1
  refine ⟨w, hw, fun st md err => ?_⟩
  have hdel : deliver s kv stale (ascii "/evaluate") body = .reply 200 (some (len32 cfg.version.toNat ++ el ++ contents)) := by
    unfold deliver
    rw [hw0]
    dsimp only
    rw [hr0]
  have conv : ∀ {v v' : Nat} {st md err}, v < 2 ^ 32 → v' < 2 ^ 32 → v % 65536 = cfg.version.toNat →
      v' % 65536 = cfg.version.toNat →
      Understands c.suite E.sha256 cfg.version.toNat (oprfInput E cfg.slowHasherID u p) r
        (.reply 200 (some (len32 v ++ el ++ contents))) st md err →
      Understands c.suite E.sha256 cfg.version.toNat (oprfInput E cfg.slowHasherID u p) r
        (.reply 200 (some (len32 v' ++ el ++ contents))) st md err := by
    intro v v' st md err hv hv' m m' hu
    have hl : ¬ (len32 v ++ el ++ contents).length < 37 := by
      rw [List.length_append, List.length_append, hel]
      have : (len32 v).length = 4 := rfl
      omega
    generalize hb : len32 v ++ el ++ contents = b at hu hl
    cases hu with
    | status h => exact absurd rfl h
    | short h => exact absurd h hl
    | version hv1 hz' h =>
      obtain ⟨rfl, rfl, rfl⟩ := parts_unique hv hv1 hel hz' hb
      exact absurd m h
    | element hv1 hz' h hd =>
      obtain ⟨rfl, rfl, rfl⟩ := parts_unique hv hv1 hel hz' hb
      exact .element hv' hel m' hd
    | answer hv1 hz' h hd ha =>
      obtain ⟨rfl, rfl, rfl⟩ := parts_unique hv hv1 hel hz' hb
      exact .answer hv' hel m' hd ha
  have hlt : cfg.version.toNat < 2 ^ 32 := by omega
  have hlong : 37 ≤ (len32 version ++ el ++ contents).length := by
    rw [List.length_append, List.length_append, hel]
    have : (len32 version).length = 4 := rfl
    omega
  have hans : ∀ st md err, Query E cfg.toConfig (deliver s kv stale (ascii "/evaluate")) u p
      rand = .ret st md err →
      Understands c.suite E.sha256 cfg.version.toNat (oprfInput E cfg.slowHasherID u p) r
        (.reply 200 (some (len32 version ++ el ++ contents))) st md err := by
    intro st md err hQ
    have := (hq _ st md err).mp hQ
    rw [hdel] at this
    exact conv hlt hvlt hv0 hv this
  rw [hr1]
  dsimp only
  cases hl : lookup db u p with
  | none =>
    rw [hl] at hideal
    have hA := hans _ _ _ hideal
    dsimp only
    constructor
    · intro hU
      obtain ⟨rfl, rfl, rfl⟩ := understands_unique hc hlong hU hA
      rfl
    · intro e
      cases e
      exact hA
  | some x =>
    rw [hl] at hideal
    have hA := hans _ _ _ hideal
    dsimp only
    constructor
    · intro hU
      obtain ⟨rfl, rfl, rfl⟩ := understands_unique hc hlong hU hA
      rfl
    · intro e
      cases e
      exact hA
end

/-! ## An example -/

/-- A document by some other client: other spellings of the names, another order, a member nobody knows, a line break in the
base64, and a version that is 1 modulo 2^16. -/
def foreign : Bytes :=
  ascii (" {\"x\":[],\"BlindElement\":\"AgAAAAAAAAAAAAAAAAAA\\nAAAAAAAAAAAAAAAAAAAAAAAI\"," ++ "\"VERSION\":65537,\"bucketId\":\"000bcefe\"}")

/-- Recognises the value of `foreign`. -/
def isForeign : Option JVal → Bool
  | some (.obj [(a, .arr []), (b, .str e), (c, .num v), (d, .str n)]) =>
    a = ascii "x" && b = ascii "BlindElement" && e = ascii "AgAAAAAAAAAAAAAAAAAA\nAAAAAAAAAAAAAAAAAAAAAAAI" && c = ascii "VERSION" && v = ascii "65537" &&
      d = ascii "bucketId" && n = ascii "000bcefe"
  | _ => false

theorem foreign_document : IsDocument foreign (.obj [(ascii "x", .arr []), (ascii "BlindElement", .str (ascii "AgAAAAAAAAAAAAAAAAAA\nAAAAAAAAAAAAAAAAAAAAAAAI")),
    (ascii "VERSION", .num (ascii "65537")), (ascii "bucketId", .str (ascii "000bcefe"))]) := by
  refine ((C63_grammar _).1 _).mp ?_
  have h : isForeign (parse foreign) = true := by decide +kernel
  generalize parse foreign = v at h
  unfold isForeign at h
  split at h
  · simp only [Bool.and_eq_true, decide_eq_true_eq] at h
    obtain ⟨⟨⟨⟨⟨⟨rfl, rfl⟩, rfl⟩, rfl⟩, rfl⟩, rfl⟩, rfl⟩ := h
    rfl
  · cases h

theorem foreign_request : IsRequest [(ascii "x", .arr []), (ascii "BlindElement", .str (ascii "AgAAAAAAAAAAAAAAAAAA\nAAAAAAAAAAAAAAAAAAAAAAAI")),
    (ascii "VERSION", .num (ascii "65537")), (ascii "bucketId", .str (ascii "000bcefe"))] 65537
    (bucketNumber Example.ext 20 (ascii "user"))
    (Example.toySuite.ser (5 * Example.toySuite.hashToElement
      (oprfInput Example.ext Example.cfg.slowHasherID (ascii "user") (ascii "password")))) := by
  have hn : bucketNumber Example.ext 20 (ascii "user") = 773886 := by decide +kernel
  have hz : b64Decode (ascii "AgAAAAAAAAAAAAAAAAAA\nAAAAAAAAAAAAAAAAAAAAAAAI") = some (Example.toySuite.ser (5 * Example.toySuite.hashToElement
      (oprfInput Example.ext Example.cfg.slowHasherID (ascii "user") (ascii "password")))) := by decide +kernel
  rw [hn]
  have he : IsBytes (.str (ascii "AgAAAAAAAAAAAAAAAAAA\nAAAAAAAAAAAAAAAAAAAAAAAI")) _ := .inr (.inl ⟨_, rfl, (b64Decode_iff _ _).mp hz⟩)
  clear hz
  generalize Example.toySuite.ser _ = bytes at he ⊢
  have same : ∀ {a b : GoString}, (∀ c ∈ a, c.toNat < 128) → fold a = fold b → SameName a b :=
    fun ha h => (sameName_iff _ ha _).mpr h
  have hb : IsBucketID (ascii "000bcefe") 773886 := ⟨by decide, by unfold IsLowerHex; decide, by decide⟩
  have hu : IsUint 4294967295 (.num (ascii "65537")) 65537 := ⟨_, rfl, (parseUint_iff _ _ _).mp (by decide +kernel)⟩
  have t1 : SameName (ascii "version") (ascii "VERSION") := same (by decide) (by decide +kernel)
  have t2 : SameName (ascii "bucketID") (ascii "bucketId") := same (by decide) (by decide +kernel)
  have t3 : SameName (ascii "blindElement") (ascii "BlindElement") := same (by decide) (by decide +kernel)
  have n1 : ¬ SameName (ascii "version") (ascii "bucketId") := not_same (by decide) (by decide +kernel)
  have n2 : ¬ SameName (ascii "version") (ascii "BlindElement") := not_same (by decide) (by decide +kernel)
  have n3 : ¬ SameName (ascii "version") (ascii "x") := not_same (by decide) (by decide +kernel)
  have n4 : ¬ SameName (ascii "bucketID") (ascii "VERSION") := not_same (by decide) (by decide +kernel)
  have n5 : ¬ SameName (ascii "bucketID") (ascii "BlindElement") := not_same (by decide) (by decide +kernel)
  have n6 : ¬ SameName (ascii "bucketID") (ascii "x") := not_same (by decide) (by decide +kernel)
  have n7 : ¬ SameName (ascii "blindElement") (ascii "VERSION") := not_same (by decide) (by decide +kernel)
  have n8 : ¬ SameName (ascii "blindElement") (ascii "bucketId") := not_same (by decide) (by decide +kernel)
  have n9 : ¬ SameName (ascii "blindElement") (ascii "x") := not_same (by decide) (by decide +kernel)
  refine ⟨⟨⟨_, .tail _ (.tail _ (.head _)), t1⟩, ?_⟩, ⟨⟨_, .tail _ (.tail _ (.tail _ (.head _))), t2⟩, ?_⟩,
    ⟨⟨_, .tail _ (.head _), t3⟩, ?_⟩⟩
  all_goals
    intro m hm hs
    simp only [List.mem_cons, List.not_mem_nil, or_false] at hm
  · rcases hm with rfl | rfl | rfl | rfl
    · exact absurd hs n3
    · exact absurd hs n2
    · exact hu
    · exact absurd hs n1
  · rcases hm with rfl | rfl | rfl | rfl
    · exact absurd hs n6
    · exact absurd hs n5
    · exact absurd hs n4
    · exact ⟨_, rfl, hb⟩
  · rcases hm with rfl | rfl | rfl | rfl
    · exact absurd hs n9
    · exact he
    · exact absurd hs n7
    · exact absurd hs n8

/-- C85, a complete concrete run: the document of the other client, posted to the example server after one insert, brings the
answer. -/
theorem C85_example : ∃ kv w,
    insertRecord Example.ext Example.server ⟨ascii "user", ascii "password", ascii "A", 0, false⟩ newKVStore = (kv, .ok ()) ∧
    serve Example.server kv (fun _ _ => 0) (ascii "/evaluate") (some foreign) = some (.ok w) ∧
    Understands Example.toySuite Example.ext.sha256 1
      (oprfInput Example.ext Example.cfg.slowHasherID (ascii "user") (ascii "password")) 5
      (.reply w.reply.status (some w.reply.body)) InBreach (some (ascii "A")) none := by
  obtain ⟨kv, hi⟩ := example_insert ⟨ascii "user", ascii "password", ascii "A", 0, false⟩ newKVStore (by decide) (by decide)
    (by decide) (by decide) (by decide)
  have hv : Mutator.mutate Mutator.dasRules (ascii "password") 0 = .ok [] := by decide +kernel
  have h := History.inserted _ _ .start hi hv
  obtain ⟨w, hw, hu⟩ := C85_any_client Example.newClient_eq Example.newServer_eq rfl example_tweak h (fun _ _ => 0)
    (ascii "user") (ascii "password") (by decide) (by decide) (by decide) (by decide) 5 (by decide +kernel) (toy_hash_ne _)
    (by
      intro x hx
      have hx' : x = ⟨ascii "user", ascii "password", 1, ascii "A"⟩ := List.mem_singleton.mp hx
      subst hx'
      rintro ⟨hne, -⟩
      exact hne ⟨rfl, rfl⟩)
    foreign_document foreign_request (by decide)
  exact ⟨kv, w, hi, hw, (hu _ _ _).mpr (by decide +kernel)⟩

end Migp.Props
