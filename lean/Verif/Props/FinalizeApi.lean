import Verif.Props.Finalize
/-!
# C24, C25 for `Finalize` itself

The theorems of `Verif.Props.Finalize` are about the loop over the bucket. Here they are put together, with the
version check and the OPRF step, into statements about what `Finalize` returns to its caller.
-/
namespace Migp.Props

/-- What a client that holds `secret` should answer for bucket contents, in terms of entries only. -/
inductive _root_.Migp.Spec.Answers (sha : Bytes → Bytes) (secret : Bytes) (contents : Bytes) :
    BreachStatus → Option Bytes → Option Err → Prop
  /-- The first entry with the tag of the secret decides, whatever comes after it. -/
  | found (es : List Spec.RawEntry) (e : Spec.RawEntry) (rest : Bytes) (hwf : ∀ x ∈ es, x.WF) (he : e.WF)
      (hc : contents = Spec.bucket es ++ e.bytes ++ rest) (hno : ∀ x ∈ es, x.tag ≠ Spec.keyTag sha secret)
      (htag : e.tag = Spec.keyTag sha secret) (hlen : e.body.length ≤ 8160) :
      Spec.Answers sha secret contents (MetadataType.toBreachStatus (e.open sha secret).1)
        (some (e.open sha secret).2) none
  /-- The same, with a body longer than any pad. -/
  | tooLong (es : List Spec.RawEntry) (e : Spec.RawEntry) (rest : Bytes) (hwf : ∀ x ∈ es, x.WF) (he : e.WF)
      (hc : contents = Spec.bucket es ++ e.bytes ++ rest) (hno : ∀ x ∈ es, x.tag ≠ Spec.keyTag sha secret)
      (htag : e.tag = Spec.keyTag sha secret) (hlen : 8160 < e.body.length) :
      Spec.Answers sha secret contents NotInBreach none (some .hkdfEntropy)
  /-- Only entries of other secrets, and then too few bytes for a header. -/
  | nothing (es : List Spec.RawEntry) (stray : Bytes) (hwf : ∀ x ∈ es, x.WF)
      (hc : contents = Spec.bucket es ++ stray) (hno : ∀ x ∈ es, x.tag ≠ Spec.keyTag sha secret)
      (hs : stray.length < 25) : Spec.Answers sha secret contents NotInBreach none none
  /-- Only entries of other secrets, and then a header that announces more bytes than there are. -/
  | malformed (es : List Spec.RawEntry) (header body : Bytes) (len : Nat) (hwf : ∀ x ∈ es, x.WF)
      (hc : contents = Spec.bucket es ++ (header ++ Spec.len32 len ++ body))
      (hno : ∀ x ∈ es, x.tag ≠ Spec.keyTag sha secret) (hh : header.length = 21) (hl : len < 2 ^ 32)
      (hb : body.length < len) : Spec.Answers sha secret contents NotInBreach none (some .bucketParse)

variable {E : Ext}

theorem firstMatch_none {sha : Bytes → Bytes} {secret : Bytes} {es : List Spec.RawEntry}
    (h : ∀ x ∈ es, x.tag ≠ Spec.keyTag sha secret) : Spec.firstMatch sha secret es = none := by
  unfold Spec.firstMatch
  rw [List.find?_eq_none]
  intro x hx
  simpa using h x hx

theorem of_firstMatch_none {sha : Bytes → Bytes} {secret : Bytes} {es : List Spec.RawEntry}
    (h : Spec.firstMatch sha secret es = none) : ∀ x ∈ es, x.tag ≠ Spec.keyTag sha secret := by
  unfold Spec.firstMatch at h
  rw [List.find?_eq_none] at h
  intro x hx
  simpa using h x hx

theorem of_firstMatch_some {sha : Bytes → Bytes} {secret : Bytes} {es : List Spec.RawEntry} {e : Spec.RawEntry}
    (h : Spec.firstMatch sha secret es = some e) : e.tag = Spec.keyTag sha secret ∧
      ∃ as bs, es = as ++ e :: bs ∧ ∀ x ∈ as, x.tag ≠ Spec.keyTag sha secret := by
  unfold Spec.firstMatch at h
  rw [List.find?_eq_some_iff_append] at h
  obtain ⟨h1, as, bs, h2, h3⟩ := h
  exact ⟨by simpa using h1, as, bs, h2, fun x hx => by simpa using h3 x hx⟩

theorem bucket_append (as bs : List Spec.RawEntry) :
    Spec.bucket (as ++ bs) = Spec.bucket as ++ Spec.bucket bs := by
  simp [Spec.bucket]

/-- A header that announces too much, right at the start. -/
theorem finalizeLoop_overrun (enc : BucketEncryptor) (secret header body : Bytes) (len : Nat)
    (hh : header.length = 21) (hl : len < 2 ^ 32) (hb : body.length < len) :
    finalizeLoop E enc secret (header ++ Spec.len32 len ++ body) 0 =
      .ret NotInBreach none (some .bucketParse) := by
  obtain ⟨tag, f, rfl, ht⟩ : ∃ (tag : Bytes) (f : UInt8), header = tag ++ [f] ∧ tag.length = 20 := by
    have hne : header ≠ [] := List.ne_nil_of_length_pos (by omega)
    have h20 : header.length - 1 = 20 := by omega
    have e := List.dropLast_append_getLast hne
    rw [List.dropLast_eq_take, h20] at e
    exact ⟨header.take 20, header.getLast hne, e.symm, by rw [List.length_take, hh]; rfl⟩
  have h := finalizeLoop_step E enc secret [] tag f (UInt32.ofNat len) body ht
  have hn : (UInt32.ofNat len).toNat = len := by
    rw [UInt32.toNat_ofNat', Nat.mod_eq_of_lt hl]
  have e : Spec.len32 len = be32 (UInt32.ofNat len) := by rw [be32_ofNat _ hl, Spec.len32]
  rw [e]
  simp only [List.nil_append, List.length_nil, List.append_assoc] at h ⊢
  rw [h, hn, if_pos hb]

/-- The loop computes exactly the answer of the specification. -/
theorem finalizeLoop_iff (enc : BucketEncryptor) (secret contents : Bytes) (status : BreachStatus)
    (metadata : Option Bytes) (err : Option Err) :
    finalizeLoop E enc secret contents 0 = .ret status metadata err ↔
      Spec.Answers E.sha256 secret contents status metadata err := by
  constructor
  · intro h
    obtain ⟨es, tail, hwf, hc, h'⟩ := C25_every_bucket E enc secret contents
    have hsome : ∀ e, Spec.firstMatch E.sha256 secret es = some e →
        finalizeLoop E enc secret contents 0 = openResult E secret e →
        Spec.Answers E.sha256 secret contents status metadata err := by
      intro e he hr
      obtain ⟨htag, as, bs, hab, hno⟩ := of_firstMatch_some he
      have hc' : contents = Spec.bucket as ++ e.bytes ++ (Spec.bucket bs ++ tail) := by
        rw [hc, hab, bucket_append]; simp [Spec.bucket]
      have hwa : ∀ x ∈ as, x.WF := fun x hx => hwf x (by rw [hab]; simp [hx])
      have hwe : e.WF := hwf e (by rw [hab]; simp)
      rw [h] at hr
      unfold openResult at hr
      split at hr
      · rename_i hl
        injection hr with a b c
        subst a b c
        exact .found as e _ hwa hwe hc' hno htag hl
      · rename_i hl
        injection hr with a b c
        subst a b c
        exact .tooLong as e _ hwa hwe hc' hno htag (by omega)
    rcases h' with ⟨hs, hr⟩ | ⟨header, body, len, hh, hl, ht, hb, hr⟩
    · cases hm : Spec.firstMatch E.sha256 secret es with
      | some e => rw [hm] at hr; exact hsome e hm hr
      | none =>
        rw [hm, h] at hr
        injection hr with a b c
        subst a b c
        exact .nothing es tail hwf hc (of_firstMatch_none hm) hs
    · cases hm : Spec.firstMatch E.sha256 secret es with
      | some e => rw [hm] at hr; exact hsome e hm hr
      | none =>
        rw [hm, h] at hr
        injection hr with a b c
        subst a b c
        exact .malformed es header body len hwf (by rw [hc, ht]) (of_firstMatch_none hm) hh hl hb
  · intro h
    cases h with
    | found es e rest hwf he hc hno htag hlen =>
      rw [hc, List.append_assoc, finalizeLoop_bucket E enc secret es hwf, firstMatch_none hno]
      dsimp only
      rw [finalizeLoop_entry E enc secret e he, if_pos htag, openResult, if_pos hlen]
    | tooLong es e rest hwf he hc hno htag hlen =>
      rw [hc, List.append_assoc, finalizeLoop_bucket E enc secret es hwf, firstMatch_none hno]
      dsimp only
      rw [finalizeLoop_entry E enc secret e he, if_pos htag, openResult, if_neg (by omega)]
    | nothing es stray hwf hc hno hs =>
      rw [hc, finalizeLoop_bucket E enc secret es hwf, firstMatch_none hno]
      exact finalizeLoop_end E enc secret stray 0 (by omega)
    | malformed es header body len hwf hc hno hh hl hb =>
      rw [hc, finalizeLoop_bucket E enc secret es hwf, firstMatch_none hno]
      exact finalizeLoop_overrun enc secret header body len hh hl hb

/-- C25: exactly what `Finalize` returns, for every context and every response: an error for a version that is not
the client's modulo 2^16, an error for an evaluated element that is not the encoding of a group element, and
otherwise the answer that the specification gives for the bucket and the OPRF output. -/
theorem C25_finalize_iff (ctx : ClientRequestContext) (resp : ServerResponse) (status : BreachStatus)
    (metadata : Option Bytes) (err : Option Err) :
    ctx.finalize E resp = .ret status metadata err ↔
      (resp.version.toNat % 65536 ≠ ctx.client.version.toNat ∧
        (status, metadata, err) = (NotInBreach, none, some .wrongVersionReply)) ∨
      (resp.version.toNat % 65536 = ctx.client.version.toNat ∧
        ctx.client.suite.de resp.evaluatedElement = none ∧
        (status, metadata, err) = (NotInBreach, none, some .oprfElement)) ∨
      (resp.version.toNat % 65536 = ctx.client.version.toNat ∧
        ∃ z, ctx.client.suite.de resp.evaluatedElement = some z ∧
          Spec.Answers E.sha256
            (ctx.client.suite.finalizeHash ctx.input OprfInfo (ctx.client.suite.ser (ctx.blind⁻¹ * z)))
            resp.bucketContents status metadata err) := by
  have hv : UInt16.ofNat resp.version.toNat = ctx.client.version ↔
      resp.version.toNat % 65536 = ctx.client.version.toNat := by
    rw [← UInt16.toNat_inj, UInt16.toNat_ofNat']
  unfold ClientRequestContext.finalize Suite.clientFinalize
  by_cases h : UInt16.ofNat resp.version.toNat = ctx.client.version
  · rw [if_neg (not_not.mpr h)]
    have h' := hv.mp h
    cases hd : ctx.client.suite.de resp.evaluatedElement with
    | none =>
      dsimp only
      constructor
      · intro e
        injection e with a b c
        subst a b c
        exact .inr (.inl ⟨h', rfl, rfl⟩)
      · rintro (⟨a, -⟩ | ⟨-, -, b⟩ | ⟨-, z, hz, -⟩)
        · exact absurd h' a
        · injection b with a b
          injection b with b c
          rw [a, b, c]
        · cases hz
    | some z =>
      dsimp only
      rw [finalizeLoop_iff]
      constructor
      · intro e
        exact .inr (.inr ⟨h', z, rfl, e⟩)
      · rintro (⟨a, -⟩ | ⟨-, b, -⟩ | ⟨-, z', hz, hA⟩)
        · exact absurd h' a
        · cases b
        · injection hz with hz
          subst hz
          exact hA
  · rw [if_pos h]
    have h' := fun x => h (hv.mpr x)
    constructor
    · intro e
      injection e with a b c
      subst a b c
      exact .inl ⟨h', rfl⟩
    · rintro (⟨-, b⟩ | ⟨a, -⟩ | ⟨a, -⟩)
      · injection b with a b
        injection b with b c
        rw [a, b, c]
      · exact absurd a h'
      · exact absurd a h'

/-- C24: an entry for the secret that the reply gives, preceded only by entries with other tags, is reported by
`Finalize` whatever follows it. -/
theorem C24_finalize_honest (ctx : ClientRequestContext) (resp : ServerResponse) (secret : Bytes)
    (hv : resp.version.toNat % 65536 = ctx.client.version.toNat)
    (hsec : ctx.client.suite.clientFinalize ctx.input ctx.blind resp.evaluatedElement OprfInfo = .ok secret)
    (before : List (Bytes × MetadataType × Bytes)) (flag : MetadataType) (body : Bytes)
    (cs : List Bytes) (c rest : Bytes)
    (hbefore : before.map (fun x => ctx.client.bucketEncryptor.encrypt E x.1 x.2.1 x.2.2) = cs.map Res.ok)
    (hthis : ctx.client.bucketEncryptor.encrypt E secret flag body = .ok c)
    (hno : ∀ x ∈ before, Spec.keyTag E.sha256 x.1 ≠ Spec.keyTag E.sha256 secret)
    (hc : resp.bucketContents = cs.flatten ++ c ++ rest) :
    ctx.finalize E resp = .ret (MetadataType.toBreachStatus flag) (some body) none := by
  unfold ClientRequestContext.finalize
  rw [if_neg, hsec]
  · dsimp only
    rw [hc]
    exact C24_honest_bucket E _ secret before flag body cs c rest hbefore hthis hno
  · rw [ne_eq, not_not, ← UInt16.toNat_inj, UInt16.toNat_ofNat']
    exact hv

end Migp.Props
