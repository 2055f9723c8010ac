import Verif.Props.Config
/-!
# C15-C21: OPRF, `HandleRequest` and the wire format
-/
namespace Migp.Props

variable {E : Ext}

/-- What `Request` returns for accepted lengths and bit sizes. -/
theorem request_ok (cfg : Config) (c : Client) (h : NewClient E cfg = .ok c) (u p : Bytes)
    (hu : u.length ≤ 65536) (hp : p.length ≤ 65536) (h0 : 0 ≤ cfg.bucketIDBitSize)
    (h32 : cfg.bucketIDBitSize ≤ 32) (r : ZMod c.suite.q) :
    ∃ id, c.bucketID E u = .ok id ∧ id.toNat = Spec.bucketNumber E cfg.bucketIDBitSize.toNat u ∧
      c.request E u p r = .ok
        ({ version := UInt32.ofNat cfg.version.toNat, bucketID := BucketIDToHex id,
           blindElement := c.suite.ser (r * c.suite.hashToElement (Spec.oprfInput E cfg.slowHasherID u p)) },
         { client := c, input := Spec.oprfInput E cfg.slowHasherID u p, blind := r }) := by
  obtain ⟨id, h1, h2, _⟩ := C03_client_bucketID cfg c h u hu h0 h32
  refine ⟨id, h1, h2, ?_⟩
  unfold Client.request
  rw [serialize_eq u p hu hp]
  simp only [Res.ok_bind]
  have hslow : c.slowHasher.hash E (Spec.credentialW u p) =
      .ok (Spec.oprfInput E cfg.slowHasherID u p) := by
    obtain ⟨slow, S, _, _, h3, _, rfl⟩ := newClient_ok h
    exact slowHash_ok E h3 _
  have hv : c.version = cfg.version := by
    obtain ⟨slow, S, _, _, h3, _, rfl⟩ := newClient_ok h
    rfl
  rw [hslow]
  simp only [Res.ok_bind]
  rw [h1]
  simp only [Res.ok_bind, hv]
  rfl

/-! ## C15: blinded evaluation equals direct evaluation -/

/-- C15: for a client and a server with the same configuration, every credential and every non-zero
blind: if the server answers the client's request, the secret the client obtains by finalising the
reply is the key under which the server encrypts that credential's entries. -/
theorem C15_blinded_eq_direct (cfg : ServerConfig) (c : Client) (s : Server)
    (hc : NewClient E cfg.toConfig = .ok c) (hs : NewServer E cfg = .ok s) (u p : Bytes)
    (r : ZMod c.suite.q) (hr : r ≠ 0) (req : ClientRequest) (ctx : ClientRequestContext)
    (h : c.request E u p r = .ok (req, ctx)) (kv : Getter) (resp : ServerResponse)
    (hresp : s.handleRequest req kv = .ok resp) :
    ∃ key, s.deriveBucketEntryKey E u p = .ok key ∧
      ctx.client.suite.clientFinalize ctx.input ctx.blind resp.evaluatedElement OprfInfo = .ok key := by
  have hnp := (C02_request_panics_iff cfg.toConfig c hc u p r).1
  rw [h] at hnp
  simp only [Res.isPanic_ok, false_iff] at hnp
  obtain ⟨id, _, _, hreq⟩ := request_ok cfg.toConfig c hc u p (by omega) (by omega) (by omega)
    (by omega) r
  rw [h] at hreq
  injection hreq with hreq
  obtain ⟨slow, S, _, _, hslow, hS, rfl⟩ := newClient_ok hc
  obtain ⟨slow', S', _, _, hslow', hS', hk, rfl⟩ := newServer_ok hs
  obtain rfl : S = S' := by rw [hS] at hS'; injection hS'
  simp only [Prod.mk.injEq] at hreq
  obtain ⟨rfl, rfl⟩ := hreq
  unfold Server.handleRequest at hresp
  split at hresp
  · cases hresp
  · obtain ⟨ev, hev, hresp⟩ := Res.bind_eq_ok.mp hresp
    have ht : Spec.tweak S cfg.privateKey ≠ 0 := by
      intro ht
      have := evaluate_zero S cfg.privateKey _ ht ▸ hev
      cases this
    have hev' := evaluate_ok S cfg.privateKey _ _ ht (S.de_ser (r * S.hashToElement
      (Spec.oprfInput E cfg.slowHasherID u p)))
    dsimp only at hev
    rw [hev'] at hev
    injection hev with hev
    refine ⟨_, deriveKey_ok hs u p (by omega) (by omega) ht, ?_⟩
    have hre : resp.evaluatedElement = ev := by
      split at hresp
      · cases hresp
      · obtain ⟨bc, _, hresp⟩ := Res.bind_eq_ok.mp hresp
        injection hresp with hresp
        rw [← hresp]
    rw [hre, ← hev]
    exact clientFinalize_ok S cfg.privateKey _ r hr

/-! ## C16: requests hide the credential -/

/-- C16: take two credentials whose usernames are in the same bucket and whose OPRF inputs do not hash
to the identity element. There is a bijection of the non-zero blinds under which the two requests
are identical: seen from outside, the request is the same random variable for both. -/
theorem C16_hiding (cfg : Config) (c : Client) (h : NewClient E cfg = .ok c)
    (u p u' p' : Bytes) (hu : u.length ≤ 65536) (hp : p.length ≤ 65536) (hu' : u'.length ≤ 65536)
    (hp' : p'.length ≤ 65536) (h0 : 0 ≤ cfg.bucketIDBitSize) (h32 : cfg.bucketIDBitSize ≤ 32)
    (hb : c.bucketID E u = c.bucketID E u')
    (he : c.suite.hashToElement (Spec.oprfInput E cfg.slowHasherID u p) ≠ 0)
    (he' : c.suite.hashToElement (Spec.oprfInput E cfg.slowHasherID u' p') ≠ 0) :
    ∃ f : {r : ZMod c.suite.q // r ≠ 0} ≃ {r : ZMod c.suite.q // r ≠ 0}, ∀ r,
      ∃ req ctx ctx', c.request E u p r.1 = .ok (req, ctx) ∧
        c.request E u' p' (f r).1 = .ok (req, ctx') := by
  set x := c.suite.hashToElement (Spec.oprfInput E cfg.slowHasherID u p) with hx
  set y := c.suite.hashToElement (Spec.oprfInput E cfg.slowHasherID u' p') with hy
  refine ⟨⟨fun r => ⟨r.1 * x * y⁻¹, by
      exact mul_ne_zero (mul_ne_zero r.2 he) (inv_ne_zero he')⟩, fun r => ⟨r.1 * y * x⁻¹, by
      exact mul_ne_zero (mul_ne_zero r.2 he') (inv_ne_zero he)⟩, ?_, ?_⟩, ?_⟩
  · intro r
    apply Subtype.ext
    simp only
    rw [mul_assoc (r.1 * x), inv_mul_cancel₀ he', mul_one, mul_assoc, mul_inv_cancel₀ he, mul_one]
  · intro r
    apply Subtype.ext
    simp only
    rw [mul_assoc (r.1 * y), inv_mul_cancel₀ he, mul_one, mul_assoc, mul_inv_cancel₀ he', mul_one]
  · intro r
    obtain ⟨id, h1, _, h2⟩ := request_ok cfg c h u p hu hp h0 h32 r.1
    obtain ⟨id', h1', _, h2'⟩ := request_ok cfg c h u' p' hu' hp' h0 h32 (r.1 * x * y⁻¹)
    have hid : id = id' := by
      rw [h1, h1'] at hb; injection hb
    subst hid
    rw [← hy, mul_assoc (r.1 * x), inv_mul_cancel₀ he', mul_one, hx] at h2'
    exact ⟨_, _, _, h2, h2'⟩

/-- C16: perfect hiding, stated for one credential: every non-identity group element is sent for
exactly one non-zero blind. -/
theorem C16_uniform (cfg : Config) (c : Client) (h : NewClient E cfg = .ok c)
    (u p : Bytes) (hu : u.length ≤ 65536) (hp : p.length ≤ 65536)
    (h0 : 0 ≤ cfg.bucketIDBitSize) (h32 : cfg.bucketIDBitSize ≤ 32)
    (he : c.suite.hashToElement (Spec.oprfInput E cfg.slowHasherID u p) ≠ 0)
    (g : ZMod c.suite.q) (hg : g ≠ 0) :
    ∃! r : ZMod c.suite.q, r ≠ 0 ∧ ∃ req ctx, c.request E u p r = .ok (req, ctx) ∧
      c.suite.de req.blindElement = some g := by
  set x := c.suite.hashToElement (Spec.oprfInput E cfg.slowHasherID u p) with hx
  refine ⟨g * x⁻¹, ⟨mul_ne_zero hg (inv_ne_zero he), ?_⟩, ?_⟩
  · obtain ⟨id, h1, _, h2⟩ := request_ok cfg c h u p hu hp h0 h32 (g * x⁻¹)
    refine ⟨_, _, h2, ?_⟩
    dsimp only
    rw [c.suite.de_ser, ← hx, mul_assoc, inv_mul_cancel₀ he, mul_one]
  · rintro r ⟨hr, req, ctx, h3, h4⟩
    obtain ⟨id, h1, _, h2⟩ := request_ok cfg c h u p hu hp h0 h32 r
    rw [h2] at h3
    injection h3 with h3
    have := (congrArg (fun q => q.1.blindElement) h3).symm
    simp only at this
    rw [this, c.suite.de_ser] at h4
    injection h4 with h4
    rw [← h4, ← hx, mul_assoc, mul_inv_cancel₀ he, mul_one]

/-- C16: version and bucketID do not depend on the password or the blind. -/
theorem C16_public_fields (cfg : Config) (c : Client) (h : NewClient E cfg = .ok c)
    (u p p' : Bytes) (r r' : ZMod c.suite.q) (req req' : ClientRequest) (ctx ctx' : ClientRequestContext)
    (h1 : c.request E u p r = .ok (req, ctx)) (h2 : c.request E u p' r' = .ok (req', ctx')) :
    req.version = req'.version ∧ req.bucketID = req'.bucketID := by
  have n1 := (C02_request_panics_iff cfg c h u p r).1
  have n2 := (C02_request_panics_iff cfg c h u p' r').1
  rw [h1] at n1; rw [h2] at n2
  simp only [Res.isPanic_ok, false_iff] at n1 n2
  obtain ⟨id, e1, _, q1⟩ := request_ok cfg c h u p (by omega) (by omega) (by omega) (by omega) r
  obtain ⟨id', e2, _, q2⟩ := request_ok cfg c h u p' (by omega) (by omega) (by omega) (by omega) r'
  rw [h1] at q1; rw [h2] at q2
  injection q1 with q1; injection q2 with q2
  have hid : id = id' := by rw [e1] at e2; injection e2
  have a1 := congrArg Prod.fst q1
  have a2 := congrArg Prod.fst q2
  simp only at a1 a2
  rw [a1, a2, hid]
  exact ⟨rfl, rfl⟩

/-! ## C17: `HandleRequest` -/

/-- C17: exactly when `HandleRequest` succeeds, and with what. -/
theorem C17_ok_iff (s : Server) (req : ClientRequest) (kv : Getter) (resp : ServerResponse) :
    s.handleRequest req kv = .ok resp ↔
      req.version.toNat % 65536 = s.version.toNat ∧
      Spec.tweak s.suite s.privateKey ≠ 0 ∧
      Spec.IsHexString req.bucketID ∧
      ∃ g contents, s.suite.de req.blindElement = some g ∧ kv req.bucketID = .ok contents ∧
        resp = { version := req.version,
                 evaluatedElement := s.suite.ser ((Spec.tweak s.suite s.privateKey)⁻¹ * g),
                 bucketContents := contents } := by
  unfold Server.handleRequest
  have hv : UInt16.ofNat req.version.toNat ≠ s.version ↔ ¬ req.version.toNat % 65536 = s.version.toNat := by
    rw [not_iff_not, ← UInt16.toNat_inj, UInt16.toNat_ofNat']
  split
  · rename_i h1
    constructor
    · intro h; cases h
    · rintro ⟨h, _⟩; exact absurd h (hv.mp h1)
  · rename_i h1
    have hver : req.version.toNat % 65536 = s.version.toNat := by
      by_contra hn; exact h1 (hv.mpr hn)
    by_cases ht : Spec.tweak s.suite s.privateKey = 0
    · rw [evaluate_zero _ _ _ ht]
      constructor
      · intro h; cases h
      · rintro ⟨_, h, _⟩; exact absurd ht h
    · cases hd : s.suite.de req.blindElement with
      | none =>
        rw [evaluate_none _ _ _ ht hd]
        constructor
        · intro h; cases h
        · rintro ⟨_, _, _, g, _, h, _⟩; cases h
      | some g =>
        rw [evaluate_ok _ _ _ g ht hd]
        simp only [Res.ok_bind]
        have hx := hexDecode_isSome_iff req.bucketID
        cases hh : hexDecode req.bucketID with
        | none =>
          rw [hh] at hx
          constructor
          · intro h; cases h
          · rintro ⟨_, _, h, _⟩; exact absurd (hx.mpr h) (by simp)
        | some b =>
          rw [hh] at hx
          have hx' := hx.mp (by simp)
          cases hkv : kv req.bucketID with
          | ok contents =>
            simp only [Res.ok_bind]
            constructor
            · intro h; injection h with h
              exact ⟨hver, ht, hx', g, contents, rfl, rfl, h.symm⟩
            · rintro ⟨_, _, _, g', contents', h1, h2, h3⟩
              injection h1 with h1; injection h2 with h2
              rw [h3, ← h1, ← h2]
          | err e => simp
          | panic e => simp

/-- C17: the error is that of the first failing check, in the order version, key, element, hex,
store. -/
theorem C17_errors (s : Server) (req : ClientRequest) (kv : Getter) :
    (req.version.toNat % 65536 ≠ s.version.toNat →
      s.handleRequest req kv = .err .versionMismatch) ∧
    (req.version.toNat % 65536 = s.version.toNat → Spec.tweak s.suite s.privateKey = 0 →
      s.handleRequest req kv = .err .oprfInverseZero) ∧
    (req.version.toNat % 65536 = s.version.toNat → Spec.tweak s.suite s.privateKey ≠ 0 →
      s.suite.de req.blindElement = none → s.handleRequest req kv = .err .oprfElement) ∧
    (req.version.toNat % 65536 = s.version.toNat → Spec.tweak s.suite s.privateKey ≠ 0 →
      (s.suite.de req.blindElement).isSome → ¬ Spec.IsHexString req.bucketID →
      s.handleRequest req kv = .err .bucketIDHex) ∧
    (∀ e, req.version.toNat % 65536 = s.version.toNat → Spec.tweak s.suite s.privateKey ≠ 0 →
      (s.suite.de req.blindElement).isSome → Spec.IsHexString req.bucketID →
      kv req.bucketID = .err e → s.handleRequest req kv = .err e) := by
  have hv : UInt16.ofNat req.version.toNat ≠ s.version ↔ ¬ req.version.toNat % 65536 = s.version.toNat := by
    rw [not_iff_not, ← UInt16.toNat_inj, UInt16.toNat_ofNat']
  unfold Server.handleRequest
  refine ⟨?_, ?_, ?_, ?_, ?_⟩
  · intro h; rw [if_pos (hv.mpr h)]
  · intro h ht
    rw [if_neg (by rw [hv]; simpa using h), evaluate_zero _ _ _ ht]; rfl
  · intro h ht hd
    rw [if_neg (by rw [hv]; simpa using h), evaluate_none _ _ _ ht hd]; rfl
  · intro h ht hd hx
    obtain ⟨g, hd⟩ := Option.isSome_iff_exists.mp hd
    rw [if_neg (by rw [hv]; simpa using h), evaluate_ok _ _ _ g ht hd]
    simp only [Res.ok_bind]
    have := hexDecode_isSome_iff req.bucketID
    cases hh : hexDecode req.bucketID with
    | none => rfl
    | some b => rw [hh] at this; exact absurd (this.mp (by simp)) hx
  · intro e h ht hd hx hkv
    obtain ⟨g, hd⟩ := Option.isSome_iff_exists.mp hd
    rw [if_neg (by rw [hv]; simpa using h), evaluate_ok _ _ _ g ht hd]
    simp only [Res.ok_bind]
    have := hexDecode_isSome_iff req.bucketID
    cases hh : hexDecode req.bucketID with
    | none => rw [hh] at this; exact absurd (this.mpr hx) (by simp)
    | some b => simp only [hkv, Res.err_bind]

/-- C17: it never panics if the store does not. -/
theorem C17_no_panic (s : Server) (req : ClientRequest) (kv : Getter)
    (hkv : ¬ (kv req.bucketID).IsPanic) : ¬ (s.handleRequest req kv).IsPanic := by
  rintro ⟨p, h⟩
  unfold Server.handleRequest at h
  split at h
  · cases h
  · rcases Res.bind_eq_panic.mp h with h | ⟨ev, _, h⟩
    · by_cases ht : Spec.tweak s.suite s.privateKey = 0
      · rw [evaluate_zero _ _ _ ht] at h; cases h
      · cases hd : s.suite.de req.blindElement with
        | none => rw [evaluate_none _ _ _ ht hd] at h; cases h
        | some g => rw [evaluate_ok _ _ _ g ht hd] at h; cases h
    · split at h
      · cases h
      · rcases Res.bind_eq_panic.mp h with h | ⟨bc, _, h⟩
        · exact hkv ⟨p, h⟩
        · cases h

/-- A request that is answered, one with a bad hex ID and one with a wrong version, in the example
suite. -/
example : ∃ s, NewServer Example.ext (DefaultServerConfig ⟨7⟩) = .ok s ∧
    (s.handleRequest ⟨1, ascii "0a", [0]⟩ (fun _ => .ok [1])).IsOk ∧
    s.handleRequest ⟨1, ascii "0g", [0]⟩ (fun _ => .ok [1]) = .err .bucketIDHex ∧
    s.handleRequest ⟨2, ascii "0a", [0]⟩ (fun _ => .ok [1]) = .err .versionMismatch := by
  have ht : Spec.tweak Example.toySuite ⟨7⟩ ≠ 0 := by decide +kernel
  have hd : Example.toySuite.de [0] = some 0 := rfl
  refine ⟨_, rfl, ?_, ?_, ?_⟩
  · exact ⟨_, (C17_ok_iff _ _ _ _).mpr ⟨rfl, ht, ⟨by decide, by decide⟩, 0, [1], hd, rfl, rfl⟩⟩
  · exact (C17_errors _ _ _).2.2.2.1 rfl ht (by exact rfl) (by unfold Spec.IsHexString; dsimp only; decide)
  · exact (C17_errors _ _ _).1 (by decide)

/-! ## C18: versions modulo 65536 -/

/-- C18: the server treats versions that agree modulo 65536 alike (the reply repeats the request's
version). -/
theorem C18_request_version (s : Server) (req : ClientRequest) (kv : Getter) (v : UInt32)
    (hv : v.toNat % 65536 = req.version.toNat % 65536) :
    s.handleRequest { req with version := v } kv =
      (s.handleRequest req kv >>= fun resp => .ok { resp with version := v }) := by
  have e : UInt16.ofNat v.toNat = UInt16.ofNat req.version.toNat := by
    rw [← UInt16.toNat_inj, UInt16.toNat_ofNat', UInt16.toNat_ofNat']; exact hv
  unfold Server.handleRequest
  dsimp only
  rw [e]
  split
  · rfl
  · cases s.suite.evaluate s.privateKey req.blindElement OprfInfo with
    | ok ev =>
      simp only [Res.ok_bind]
      cases hexDecode req.bucketID with
      | none => rfl
      | some b => cases kv req.bucketID <;> rfl
    | err e => rfl
    | panic e => rfl

/-- C18: and so does the client for replies. -/
theorem C18_reply_version (ctx : ClientRequestContext) (resp : ServerResponse) (v : UInt32)
    (hv : v.toNat % 65536 = resp.version.toNat % 65536) :
    ctx.finalize E { resp with version := v } = ctx.finalize E resp := by
  have e : UInt16.ofNat v.toNat = UInt16.ofNat resp.version.toNat := by
    rw [← UInt16.toNat_inj, UInt16.toNat_ofNat', UInt16.toNat_ofNat']; exact hv
  unfold ClientRequestContext.finalize
  dsimp only
  rw [e]

/-- C18: a reply is rejected for its version exactly when it differs modulo 65536. -/
theorem C18_reply_rejected (ctx : ClientRequestContext) (resp : ServerResponse)
    (hv : resp.version.toNat % 65536 ≠ ctx.client.version.toNat) :
    ctx.finalize E resp = .ret NotInBreach none (some .wrongVersionReply) := by
  unfold ClientRequestContext.finalize
  rw [if_pos]
  rw [Ne, ← UInt16.toNat_inj, UInt16.toNat_ofNat']
  exact hv

/-- C18: exact rejection is false: every server answers requests of every version that equals its own modulo 65536, and there are
such versions that are not its own. -/
theorem C18_exact_rejection_false (s : Server) (ht : Spec.tweak s.suite s.privateKey ≠ 0) :
    (∀ v : UInt32, v.toNat % 65536 = s.version.toNat →
      ∃ req : ClientRequest, req.version = v ∧ (s.handleRequest req (fun _ => .ok [])).IsOk) ∧
    ∃ v : UInt32, v.toNat % 65536 = s.version.toNat ∧ v.toNat ≠ s.version.toNat := by
  have hlt := s.version.toNat_lt
  constructor
  · intro v hv
    exact ⟨⟨v, [], s.suite.ser 0⟩, rfl, _,
      (C17_ok_iff _ _ _ _).mpr ⟨hv, ht, ⟨rfl, by simp⟩, 0, [], s.suite.de_ser 0, rfl, rfl⟩⟩
  · refine ⟨UInt32.ofNat (65536 + s.version.toNat), ?_, ?_⟩
    · simp only [UInt32.toNat_ofNat']; omega
    · simp only [UInt32.toNat_ofNat']; omega

/-! ## C20, C21: wire format -/

theorem unmarshal_eq (v : UInt32) (el bc : Bytes) (hl : el.length = 33) :
    ServerResponse.unmarshalBinary (be32 v ++ (el ++ bc)) =
      .ok { version := v, evaluatedElement := el, bucketContents := bc } := by
  have h1 : readUint32 (be32 v ++ (el ++ bc)) = .ok (v, el ++ bc) := by
    have := beUint32_be32 v []
    simp only [be32, List.append_nil] at this
    simp only [be32, List.cons_append, List.nil_append, readUint32, this, Res.ok_bind]
  have h2 : bufferRead (el ++ bc) defaultElementLength = .ok (defaultElementLength, el, bc) := by
    unfold bufferRead
    rw [if_neg (by rintro ⟨h, _⟩; rw [List.append_eq_nil_iff] at h; rw [h.1] at hl; simp at hl)]
    have hl' : el.length = defaultElementLength := hl
    rw [List.take_left' hl', List.drop_left' hl', List.length_append, hl']
    congr 2
    exact Nat.min_eq_left (Nat.le_add_right _ _)
  unfold ServerResponse.unmarshalBinary
  rw [h1]
  simp only [Res.ok_bind]
  rw [h2]
  simp

theorem unmarshal_short (data : Bytes) (h : data.length < 37) :
    (ServerResponse.unmarshalBinary data).IsErr := by
  unfold ServerResponse.unmarshalBinary
  match data, h with
  | [], _ => exact ⟨_, rfl⟩
  | [_], _ => exact ⟨_, rfl⟩
  | [_, _], _ => exact ⟨_, rfl⟩
  | [_, _, _], _ => exact ⟨_, rfl⟩
  | a :: b :: c :: d :: rest, h =>
    simp only [readUint32, beUint32, Res.ok_bind]
    have hr : rest.length < 33 := by simp at h; omega
    by_cases h0 : rest = []
    · subst h0; exact ⟨_, rfl⟩
    · have h2 : bufferRead rest defaultElementLength =
          .ok (rest.length, rest.take defaultElementLength, rest.drop defaultElementLength) := by
        unfold bufferRead
        rw [if_neg (by rintro ⟨h, _⟩; exact h0 h), Nat.min_eq_right]
        simp only [defaultElementLength]; omega
      rw [h2]
      simp only [Res.ok_bind]
      rw [if_pos (by simp only [defaultElementLength]; omega)]
      exact ⟨_, rfl⟩

/-- The 37 leading bytes of a message in their fields. -/
theorem split_message (data : Bytes) (h : 37 ≤ data.length) :
    ∃ v el bc, el.length = 33 ∧ data = be32 v ++ (el ++ bc) ∧
      v.toNat = (data.take 4).foldl (fun n b => 256 * n + b.toNat) 0 := by
  match data, h with
  | a :: b :: c :: d :: rest, h =>
    have := a.toNat_lt; have := b.toNat_lt; have := c.toNat_lt; have := d.toNat_lt
    refine ⟨UInt32.ofNat (a.toNat * 16777216 + b.toNat * 65536 + c.toNat * 256 + d.toNat),
      rest.take 33, rest.drop 33, by simp at h ⊢; omega, ?_, ?_⟩
    · rw [List.take_append_drop]
      have hb : be32 (UInt32.ofNat (a.toNat * 16777216 + b.toNat * 65536 + c.toNat * 256 + d.toNat)) =
          [a, b, c, d] := by
        simp only [be32, UInt32.toNat_ofNat', List.cons.injEq, and_true]
        refine ⟨?_, ?_, ?_, ?_⟩ <;> apply UInt8.toNat_inj.mp <;> rw [UInt8.toNat_ofNat'] <;> omega
      rw [hb]; rfl
    · simp only [UInt32.toNat_ofNat', List.take_succ_cons, List.take_zero, List.foldl_cons,
        List.foldl_nil]
      omega

/-- C20: `UnmarshalBinary` never panics and errs exactly on fewer than 37 bytes; otherwise the
version is the first four bytes, the element the next 33 and the bucket the rest. -/
theorem C20_unmarshal (data : Bytes) :
    ¬ (ServerResponse.unmarshalBinary data).IsPanic ∧
    ((ServerResponse.unmarshalBinary data).IsErr ↔ data.length < 37) ∧
    (37 ≤ data.length → ∃ r, ServerResponse.unmarshalBinary data = .ok r ∧
      r.version.toNat = (data.take 4).foldl (fun n b => 256 * n + b.toNat) 0 ∧
      r.evaluatedElement = (data.drop 4).take 33 ∧ r.bucketContents = data.drop 37) := by
  by_cases h : data.length < 37
  · obtain ⟨e, he⟩ := unmarshal_short data h
    rw [he]
    exact ⟨by simp, by simp [h], fun h' => by omega⟩
  · obtain ⟨v, el, bc, hl, hd, hv⟩ := split_message data (by omega)
    have he := unmarshal_eq v el bc hl
    rw [← hd] at he
    rw [he]
    refine ⟨by simp, by simp; omega, fun _ => ⟨_, rfl, hv, ?_, ?_⟩⟩
    · rw [hd, List.drop_left' (by simp), List.take_left' hl]
    · rw [hd, ← List.append_assoc, List.drop_left' (by simp [hl])]

/-- C20: marshalling what was unmarshalled reproduces the input. -/
theorem C20_marshal_unmarshal (data : Bytes) (r : ServerResponse)
    (h : ServerResponse.unmarshalBinary data = .ok r) : r.marshalBinary = .ok data := by
  have h37 : 37 ≤ data.length := by
    by_contra hn
    have := (C20_unmarshal data).2.1.mpr (by omega)
    rw [h] at this
    simp at this
  obtain ⟨r', h1, h2, h3, h4⟩ := (C20_unmarshal data).2.2 h37
  rw [h] at h1
  injection h1 with h1
  subst h1
  unfold ServerResponse.marshalBinary
  congr 1
  have hv : be32 r.version = data.take 4 := by
    match data, h37 with
    | a :: b :: c :: d :: rest, _ =>
      have := a.toNat_lt; have := b.toNat_lt; have := c.toNat_lt; have := d.toNat_lt
      simp only [List.take_succ_cons, List.take_zero, List.foldl_cons, List.foldl_nil] at h2 ⊢
      simp only [be32, h2, List.cons.injEq, and_true]
      refine ⟨?_, ?_, ?_, ?_⟩ <;> apply UInt8.toNat_inj.mp <;> rw [UInt8.toNat_ofNat'] <;> omega
  rw [hv, h3, h4]
  have : data.drop 37 = (data.drop 4).drop 33 := by simp
  rw [this, List.append_assoc, List.take_append_drop, List.take_append_drop]

/-- C20: unmarshalling what was marshalled reproduces the response iff its element has exactly 33
bytes. -/
theorem C20_unmarshal_marshal_iff (r : ServerResponse) :
    (r.marshalBinary >>= ServerResponse.unmarshalBinary) = .ok r ↔ r.evaluatedElement.length = 33 := by
  constructor
  · intro h
    obtain ⟨data, _, h⟩ := Res.bind_eq_ok.mp h
    have h37 : 37 ≤ data.length := by
      by_contra hn
      have := (C20_unmarshal data).2.1.mpr (by omega)
      rw [h] at this
      simp at this
    obtain ⟨r', h1, _, h3, _⟩ := (C20_unmarshal data).2.2 h37
    rw [h] at h1
    injection h1 with h1
    rw [h1, h3]
    simp
    omega
  · intro hl
    obtain ⟨v, el, bc⟩ := r
    simp only [ServerResponse.marshalBinary, Res.ok_bind, List.append_assoc]
    exact unmarshal_eq v el bc hl

/-- C21: for a response with a longer element, unmarshalling succeeds but moves the tail of the element
to the front of the bucket contents. -/
theorem C21_long_element (r : ServerResponse) (h : 33 < r.evaluatedElement.length) :
    (r.marshalBinary >>= ServerResponse.unmarshalBinary) =
      .ok { version := r.version, evaluatedElement := r.evaluatedElement.take 33,
            bucketContents := r.evaluatedElement.drop 33 ++ r.bucketContents } := by
  have e : r.marshalBinary = ServerResponse.marshalBinary ⟨r.version, r.evaluatedElement.take 33,
      r.evaluatedElement.drop 33 ++ r.bucketContents⟩ := by
    simp only [ServerResponse.marshalBinary]
    congr 1
    rw [List.append_assoc, List.append_assoc, ← List.append_assoc (List.take _ _),
      List.take_append_drop]
  rw [e]
  exact (C20_unmarshal_marshal_iff _).mpr (by simp; omega)

/-- C21: for a server whose suite has elements of more than 33 bytes, no reply to a request that does
not evaluate to the identity survives the wire format, although the configuration is accepted. -/
theorem C21_other_suites_broken (s : Server) (hs : 33 < s.suite.elemLen) (req : ClientRequest)
    (kv : Getter) (resp : ServerResponse) (h : s.handleRequest req kv = .ok resp)
    (hne : s.suite.de req.blindElement ≠ some 0) :
    (resp.marshalBinary >>= ServerResponse.unmarshalBinary).IsOk ∧
    (resp.marshalBinary >>= ServerResponse.unmarshalBinary) ≠ .ok resp := by
  obtain ⟨_, ht, _, g, bc, hg, _, rfl⟩ := (C17_ok_iff _ _ _ _).mp h
  have hg0 : g ≠ 0 := by rintro rfl; exact hne hg
  have hl := s.suite.ser_len _ (mul_ne_zero (inv_ne_zero ht) hg0)
  constructor
  · rw [C21_long_element _ (by dsimp only; omega)]; exact ⟨_, rfl⟩
  · rw [Ne, C20_unmarshal_marshal_iff]; dsimp only; omega

/-- C21/C20: for the default suite every reply that does not evaluate to the identity survives. -/
theorem C20_default_suite_survives (s : Server) (hs : s.suite.elemLen = 33) (req : ClientRequest)
    (kv : Getter) (resp : ServerResponse) (h : s.handleRequest req kv = .ok resp)
    (hne : s.suite.de req.blindElement ≠ some 0) :
    (resp.marshalBinary >>= ServerResponse.unmarshalBinary) = .ok resp := by
  obtain ⟨_, ht, _, g, bc, hg, _, rfl⟩ := (C17_ok_iff _ _ _ _).mp h
  have hg0 : g ≠ 0 := by rintro rfl; exact hne hg
  have hl := s.suite.ser_len _ (mul_ne_zero (inv_ne_zero ht) hg0)
  rw [C20_unmarshal_marshal_iff]; dsimp only; omega

/-- A server with the longer suite exists and answers such a request. -/
example : ∃ s, NewServer Example.ext { DefaultServerConfig ⟨7⟩ with oprfSuite := 4 } = .ok s ∧
    33 < s.suite.elemLen ∧ ∃ req, (s.handleRequest req (fun _ => .ok [1])).IsOk ∧
      s.suite.de req.blindElement ≠ some 0 := by
  have ht : Spec.tweak Example.toySuite2 ⟨7⟩ ≠ 0 := by decide +kernel
  refine ⟨_, rfl, by decide, ⟨1, ascii "0a", Example.toySuite2.ser 5⟩, ?_, ?_⟩
  · exact ⟨_, (C17_ok_iff _ _ _ _).mpr ⟨rfl, ht, ⟨by decide, by decide⟩, 5, [1],
      Example.toySuite2.de_ser 5, rfl, rfl⟩⟩
  · show Example.toySuite2.de (Example.toySuite2.ser 5) ≠ some 0
    rw [Example.toySuite2.de_ser]
    decide

end Migp.Props
