import Verif.Lemmas.Finalize
import Verif.Spec.Bucket
import Verif.Props.Protocol
/-!
# C22-C25: `Finalize`
-/
namespace Migp.Props

variable (E : Ext)

/-! ## Preliminaries -/

theorem rawEntry_bytes (e : Spec.RawEntry) (h : e.WF) :
    e.bytes = e.tag ++ ([e.flag] ++ (be32 (UInt32.ofNat e.body.length) ++ e.body)) := by
  rw [be32_ofNat _ h.2, Spec.RawEntry.bytes, Spec.len32]
  simp

theorem rawEntry_open (secret : Bytes) (e : Spec.RawEntry) :
    e.open E.sha256 secret = (e.flag ^^^ flagPad E secret, Spec.xor e.body (bodyPad E secret e.body.length)) := by
  unfold Spec.RawEntry.open
  have := xor_header E secret e.flag
  unfold DerivePadHeaderSalt at this
  rw [this, List.getElem?_append_right (by rw [keyTag_length])]
  simp [keyTag_length, bodyPad, DerivePadBodySalt]

/-- What `Finalize` returns once an entry with the right tag is found. -/
def openResult (E : Ext) (secret : Bytes) (e : Spec.RawEntry) : Out :=
  if e.body.length ≤ 8160 then
    .ret (MetadataType.toBreachStatus (e.open E.sha256 secret).1) (some (e.open E.sha256 secret).2) none
  else .ret NotInBreach none (some .hkdfEntropy)

theorem finalizeLoop_entry (enc : BucketEncryptor) (secret : Bytes) (e : Spec.RawEntry) (h : e.WF)
    (rest : Bytes) :
    finalizeLoop E enc secret (e.bytes ++ rest) 0 =
      if e.tag = Spec.keyTag E.sha256 secret then openResult E secret e
      else finalizeLoop E enc secret rest 0 := by
  have hb : e.body.length = (UInt32.ofNat e.body.length).toNat := by
    rw [UInt32.toNat_ofNat', Nat.mod_eq_of_lt h.2]
  have := finalizeLoop_cons E enc secret e.tag e.flag (UInt32.ofNat e.body.length) e.body rest h.1 hb
  have hc : e.bytes ++ rest = e.tag ++ ([e.flag] ++ (be32 (UInt32.ofNat e.body.length) ++ (e.body ++ rest))) := by
    rw [rawEntry_bytes e h]; simp
  rw [hc, this]
  by_cases hk : Spec.keyTag E.sha256 secret = e.tag
  · rw [if_pos hk, if_pos hk.symm, openResult, rawEntry_open]
    by_cases hl : e.body.length ≤ 8160
    · rw [decryptBody_ok E enc secret _ hl, if_pos hl]
    · rw [decryptBody_err E enc secret _ (by omega), if_neg hl]
  · rw [if_neg hk, if_neg (fun h => hk h.symm)]

/-- Going through a list of entries followed by anything. -/
theorem finalizeLoop_bucket (enc : BucketEncryptor) (secret : Bytes) (es : List Spec.RawEntry)
    (h : ∀ e ∈ es, e.WF) (rest : Bytes) :
    finalizeLoop E enc secret (Spec.bucket es ++ rest) 0 =
      match Spec.firstMatch E.sha256 secret es with
      | some e => openResult E secret e
      | none => finalizeLoop E enc secret rest 0 := by
  induction es with
  | nil => simp [Spec.bucket, Spec.firstMatch]
  | cons e es ih =>
    have e1 : Spec.bucket (e :: es) ++ rest = e.bytes ++ (Spec.bucket es ++ rest) := by
      simp [Spec.bucket]
    rw [e1, finalizeLoop_entry E enc secret e (h e (by simp)), ih (fun x hx => h x (by simp [hx]))]
    by_cases hk : e.tag = Spec.keyTag E.sha256 secret
    · simp [Spec.firstMatch, hk]
    · simp [Spec.firstMatch, hk]

/-! ## C24: the first matching entry -/

/-- C24: on a bucket that is a list of well-formed entries followed by fewer than 25 stray bytes, the
loop returns what is in the first entry whose tag is that of the secret (an error in the case of a
body that no honest server can produce, longer than 8160 bytes), and `NotInBreach`, nil, nil if there
is none. -/
theorem C24_first_match (enc : BucketEncryptor) (secret : Bytes) (es : List Spec.RawEntry)
    (h : ∀ e ∈ es, e.WF) (stray : Bytes) (hs : stray.length < 25) :
    finalizeLoop E enc secret (Spec.bucket es ++ stray) 0 =
      match Spec.firstMatch E.sha256 secret es with
      | none => .ret NotInBreach none none
      | some e =>
        if e.body.length ≤ 8160 then
          .ret (MetadataType.toBreachStatus (e.open E.sha256 secret).1)
            (some (e.open E.sha256 secret).2) none
        else .ret NotInBreach none (some .hkdfEntropy) := by
  rw [finalizeLoop_bucket E enc secret es h stray]
  cases Spec.firstMatch E.sha256 secret es with
  | none => exact finalizeLoop_end E enc secret stray 0 (by omega)
  | some e => rfl

/-- C24 for entries made by `Encrypt`: each entry is encrypted under its own secret; if the first
one with the client's tag is under the client's secret, its flag and body are returned, whatever bytes follow it. -/
theorem C24_honest_bucket (enc : BucketEncryptor) (secret : Bytes)
    (before : List (Bytes × MetadataType × Bytes)) (flag : MetadataType) (body : Bytes)
    (cs : List Bytes) (c rest : Bytes)
    (hbefore : before.map (fun x => enc.encrypt E x.1 x.2.1 x.2.2) = cs.map Res.ok)
    (hthis : enc.encrypt E secret flag body = .ok c)
    (hno : ∀ x ∈ before, Spec.keyTag E.sha256 x.1 ≠ Spec.keyTag E.sha256 secret) :
    finalizeLoop E enc secret (cs.flatten ++ c ++ rest) 0 =
      .ret (MetadataType.toBreachStatus flag) (some body) none := by
  -- every ciphertext is the bytes of a raw entry with the tag of its secret
  have raw : ∀ s f b c, enc.encrypt E s f b = .ok c →
      ∃ e : Spec.RawEntry, e.WF ∧ e.bytes = c ∧ e.tag = Spec.keyTag E.sha256 s ∧
        e.body.length ≤ 8160 ∧ e.open E.sha256 s = (f, b) := by
    intro s f b c hc
    have hb : b.length ≤ 8160 := by
      by_contra hb
      rw [encrypt_err E enc s f b (by omega)] at hc
      cases hc
    rw [encrypt_ok E enc s f b hb] at hc
    injection hc with hc
    have hl : (Spec.xor b (bodyPad E s b.length)).length = b.length := by
      rw [xor_length, bodyPad_length E _ _ hb]; omega
    have wf : (⟨Spec.keyTag E.sha256 s, f ^^^ flagPad E s, Spec.xor b (bodyPad E s b.length)⟩ :
        Spec.RawEntry).WF := ⟨keyTag_length E s, by rw [hl]; omega⟩
    refine ⟨_, wf, ?_, rfl, by dsimp only; omega, ?_⟩
    · rw [rawEntry_bytes _ wf, ← hc, entryParts]; dsimp only; rw [hl]
    · rw [rawEntry_open]
      dsimp only
      rw [hl, xor_xor _ _ (bodyPad_length E _ _ hb).symm, UInt8.xor_assoc, UInt8.xor_self,
        UInt8.xor_zero]
  have rawBefore : ∀ (bs : List (Bytes × MetadataType × Bytes)) (cs : List Bytes),
      bs.map (fun x => enc.encrypt E x.1 x.2.1 x.2.2) = cs.map Res.ok →
      (∀ x ∈ bs, Spec.keyTag E.sha256 x.1 ≠ Spec.keyTag E.sha256 secret) →
      ∃ es : List Spec.RawEntry, (∀ e ∈ es, e.WF) ∧ Spec.bucket es = cs.flatten ∧
        Spec.firstMatch E.sha256 secret es = none := by
    intro bs
    induction bs with
    | nil =>
      intro cs h _
      cases cs with
      | nil => exact ⟨[], by simp, rfl, rfl⟩
      | cons _ _ => simp at h
    | cons x xs ih =>
      intro cs h hno
      cases cs with
      | nil => simp at h
      | cons c cs =>
        simp only [List.map_cons, List.cons.injEq] at h
        obtain ⟨e, hwf, hbytes, htag, _, _⟩ := raw _ _ _ _ h.1
        obtain ⟨es, h1, h2, h3⟩ := ih cs h.2 (fun y hy => hno y (by simp [hy]))
        refine ⟨e :: es, ?_, ?_, ?_⟩
        · intro y hy
          rcases List.mem_cons.mp hy with rfl | hy
          · exact hwf
          · exact h1 y hy
        · simp only [Spec.bucket, List.map_cons, List.flatten_cons] at h2 ⊢
          rw [h2, hbytes]
        · have hne : ¬ e.tag = Spec.keyTag E.sha256 secret := by rw [htag]; exact hno x (by simp)
          simp only [Spec.firstMatch] at h3 ⊢
          rw [List.find?_cons_of_neg (by simpa using hne)]
          exact h3
  obtain ⟨es, h1, h2, h3⟩ := rawBefore before cs hbefore hno
  obtain ⟨e, hwf, hbytes, htag, hlen, hopen⟩ := raw _ _ _ _ hthis
  have hc : cs.flatten ++ c ++ rest = Spec.bucket es ++ (e.bytes ++ rest) := by
    rw [h2, hbytes]; simp
  rw [hc, finalizeLoop_bucket E enc secret es h1, h3]
  dsimp only
  rw [finalizeLoop_entry E enc secret e hwf, if_pos htag, openResult, if_pos hlen, hopen]

/-! ## C25: errors -/

/-- C25: every byte string is a list of well-formed entries followed either by fewer than 25 bytes, or
by a header whose body length is more than what follows it; and this decides the result. -/
theorem C25_every_bucket (enc : BucketEncryptor) (secret contents : Bytes) :
    ∃ es tail, (∀ e ∈ es, Spec.RawEntry.WF e) ∧ contents = Spec.bucket es ++ tail ∧
      ((tail.length < 25 ∧
        finalizeLoop E enc secret contents 0 =
          match Spec.firstMatch E.sha256 secret es with
          | some e => openResult E secret e
          | none => .ret NotInBreach none none) ∨
       (∃ header body len, header.length = 21 ∧ len < 2 ^ 32 ∧
          tail = header ++ Spec.len32 len ++ body ∧ body.length < len ∧
        finalizeLoop E enc secret contents 0 =
          match Spec.firstMatch E.sha256 secret es with
          | some e => openResult E secret e
          | none => .ret NotInBreach none (some .bucketParse))) := by
  induction hn : contents.length using Nat.strongRecOn generalizing contents with
  | _ n ih =>
    by_cases h25 : contents.length < 25
    · exact ⟨[], contents, by simp, by simp [Spec.bucket], Or.inl ⟨h25, by
        simpa [Spec.firstMatch] using finalizeLoop_end E enc secret contents 0 (by omega)⟩⟩
    · obtain ⟨tag, f, len, rest, ht, hc⟩ := split_header contents (by omega)
      by_cases hl : rest.length < len.toNat
      · refine ⟨[], contents, by simp, by simp [Spec.bucket], Or.inr
          ⟨tag ++ [f], rest, len.toNat, by simp [ht], len.toNat_lt, ?_, hl, ?_⟩⟩
        · have : Spec.len32 len.toNat = be32 len := by
            rw [Spec.len32, ← be32_ofNat _ len.toNat_lt]; simp
          rw [this, hc]; simp
        · have := finalizeLoop_step E enc secret [] tag f len rest ht
          simp only [List.nil_append, List.length_nil] at this
          rw [hc]
          simp only [List.cons_append, List.nil_append] at this ⊢
          rw [this, if_pos hl]
          rfl
      · set e : Spec.RawEntry := ⟨tag, f, rest.take len.toNat⟩ with he
        have hbl : e.body.length = len.toNat := by simp [he]; omega
        have hwf : e.WF := ⟨ht, by rw [hbl]; exact len.toNat_lt⟩
        have hbytes : contents = e.bytes ++ rest.drop len.toNat := by
          rw [rawEntry_bytes e hwf, hbl, hc]
          simp [he]
        obtain ⟨es, tail, h1, h2, h3⟩ := ih (rest.drop len.toNat).length (by
          rw [← hn, hbytes, List.length_append, rawEntry_bytes e hwf]; simp)
          (rest.drop len.toNat) rfl
        refine ⟨e :: es, tail, ?_, ?_, ?_⟩
        · intro y hy
          rcases List.mem_cons.mp hy with rfl | hy
          · exact hwf
          · exact h1 y hy
        · have : Spec.bucket (e :: es) = e.bytes ++ Spec.bucket es := by simp [Spec.bucket]
          rw [this, List.append_assoc, ← h2]
          exact hbytes
        · have hstep := finalizeLoop_entry E enc secret e hwf (rest.drop len.toNat)
          rw [← hbytes] at hstep
          have hfm : Spec.firstMatch E.sha256 secret (e :: es) =
              if e.tag = Spec.keyTag E.sha256 secret then some e
              else Spec.firstMatch E.sha256 secret es := by
            by_cases hk : e.tag = Spec.keyTag E.sha256 secret <;> simp [Spec.firstMatch, hk]
          rw [hfm, hstep]
          rcases h3 with ⟨ht', hr⟩ | ⟨header, body, l, a, b, c, d, hr⟩
          · refine Or.inl ⟨ht', ?_⟩
            by_cases hk : e.tag = Spec.keyTag E.sha256 secret
            · simp only [if_pos hk]
            · simp only [if_neg hk]; exact hr
          · refine Or.inr ⟨header, body, l, a, b, c, d, ?_⟩
            by_cases hk : e.tag = Spec.keyTag E.sha256 secret
            · simp only [if_pos hk]
            · simp only [if_neg hk]; exact hr

/-- C25: whenever `Finalize` reports an error, the status is `NotInBreach` and the metadata nil; and
it never panics, for any response whatsoever. -/
theorem C25_error_safe (ctx : ClientRequestContext) (resp : ServerResponse) :
    ∃ status metadata err, ctx.finalize E resp = .ret status metadata err ∧
      (err ≠ none → status = NotInBreach ∧ metadata = none) ∧
      (metadata = none → status = NotInBreach) := by
  unfold ClientRequestContext.finalize
  split
  · exact ⟨_, _, _, rfl, fun _ => ⟨rfl, rfl⟩, fun _ => rfl⟩
  · have hcf : ∀ x y z, ctx.client.suite.clientFinalize ctx.input ctx.blind x y ≠ .panic z := by
      intro x y z h
      unfold Suite.clientFinalize at h
      split at h <;> cases h
    split
    · rename_i h; exact absurd h (hcf _ _ _)
    · exact ⟨_, _, _, rfl, fun _ => ⟨rfl, rfl⟩, fun _ => rfl⟩
    · rename_i secret _
      obtain ⟨es, tail, _, _, h⟩ := C25_every_bucket E ctx.client.bucketEncryptor secret resp.bucketContents
      rcases h with ⟨_, h⟩ | ⟨_, _, _, _, _, _, _, h⟩ <;> rw [h]
      all_goals
        cases Spec.firstMatch E.sha256 secret es with
        | none => exact ⟨_, _, _, rfl, fun _ => ⟨rfl, rfl⟩, fun _ => rfl⟩
        | some e =>
          simp only [openResult]
          split
          · exact ⟨_, _, _, rfl, fun h => absurd rfl h, fun h => by cases h⟩
          · exact ⟨_, _, _, rfl, fun _ => ⟨rfl, rfl⟩, fun _ => rfl⟩

/-- C25: cutting off a bucket of well-formed entries at any point gives the answer of the first `k`
entries for some `k`, or a parse error when none of those matches. -/
theorem C25_truncation (enc : BucketEncryptor) (secret : Bytes) (es : List Spec.RawEntry)
    (h : ∀ e ∈ es, e.WF) (n : Nat) :
    ∃ k, finalizeLoop E enc secret ((Spec.bucket es).take n) 0 =
        finalizeLoop E enc secret (Spec.bucket (es.take k)) 0 ∨
      (Spec.firstMatch E.sha256 secret (es.take k) = none ∧
       finalizeLoop E enc secret ((Spec.bucket es).take n) 0 =
        .ret NotInBreach none (some .bucketParse)) := by
  induction es generalizing n with
  | nil => exact ⟨0, Or.inl (by simp [Spec.bucket])⟩
  | cons e es ih =>
    have hwf := h e (by simp)
    have hb : Spec.bucket (e :: es) = e.bytes ++ Spec.bucket es := by simp [Spec.bucket]
    by_cases hn : e.bytes.length ≤ n
    · obtain ⟨k, hk⟩ := ih (fun x hx => h x (by simp [hx])) (n - e.bytes.length)
      refine ⟨k + 1, ?_⟩
      have hb' : Spec.bucket (List.take (k + 1) (e :: es)) = e.bytes ++ Spec.bucket (es.take k) := by
        simp [Spec.bucket]
      rw [hb, hb', List.take_append, List.take_of_length_le hn,
        finalizeLoop_entry E enc secret e hwf, finalizeLoop_entry E enc secret e hwf]
      by_cases ht : e.tag = Spec.keyTag E.sha256 secret
      · left; rw [if_pos ht, if_pos ht]
      · rw [if_neg ht, if_neg ht]
        rcases hk with hk | ⟨hk, hk'⟩
        · exact Or.inl hk
        · refine Or.inr ⟨?_, hk'⟩
          simp only [List.take_succ_cons]
          simp only [Spec.firstMatch] at hk ⊢
          rw [List.find?_cons_of_neg (by simpa using ht)]
          exact hk
    · refine ⟨0, ?_⟩
      rw [hb, List.take_append_of_le_length (by omega)]
      have hend : finalizeLoop E enc secret (Spec.bucket (List.take 0 (e :: es))) 0 =
          .ret NotInBreach none none := finalizeLoop_end E enc secret _ 0 (by simp [Spec.bucket])
      by_cases h25 : n < 25
      · left
        rw [hend]
        exact finalizeLoop_end E enc secret _ 0 (by simp; omega)
      · right
        refine ⟨rfl, ?_⟩
        have hlen : e.bytes.length = 25 + e.body.length := by
          rw [rawEntry_bytes e hwf]; simp [hwf.1]; omega
        have hcut : e.bytes.take n = e.tag ++ ([e.flag] ++ (be32 (UInt32.ofNat e.body.length) ++
            e.body.take (n - 25))) := by
          have : e.bytes = (e.tag ++ ([e.flag] ++ be32 (UInt32.ofNat e.body.length))) ++ e.body := by
            rw [rawEntry_bytes e hwf]; simp
          have hl : (e.tag ++ ([e.flag] ++ be32 (UInt32.ofNat e.body.length))).length = 25 := by
            simp [hwf.1]
          rw [this, List.take_append, List.take_of_length_le (by omega), hl]
          simp
        have := finalizeLoop_step E enc secret [] e.tag e.flag (UInt32.ofNat e.body.length)
          (e.body.take (n - 25)) hwf.1
        simp only [List.nil_append, List.length_nil] at this
        rw [hcut]
        simp only [List.cons_append, List.nil_append] at this ⊢
        rw [this, if_pos]
        rw [UInt32.toNat_ofNat', Nat.mod_eq_of_lt hwf.2, List.length_take]
        omega

/-- Two entries, the second of which is the client's, with the real hash: the hypotheses of
`C24_honest_bucket` hold. -/
example : ∃ c1 c2 : Bytes,
    finalizeLoop Example.ext .hkdfSHA256 [2] (c1 ++ c2 ++ [0, 0]) 0 =
      .ret SimilarInBreach (some [6, 7, 8]) none ∧ c1.length = 27 ∧ c2.length = 28 := by
  have h1 := C07_format Example.ext .hkdfSHA256 [1] 1 [5, 5] (by decide)
  have h2 := C07_format Example.ext .hkdfSHA256 [2] 2 [6, 7, 8] (by decide)
  refine ⟨_, _, ?_, (C07_size _ _ _ _ _ _ h1).1, (C07_size _ _ _ _ _ _ h2).1⟩
  have := C24_honest_bucket Example.ext .hkdfSHA256 [2] [([1], 1, [5, 5])] 2 [6, 7, 8]
    [Spec.entry Example.ext.sha256 [1] 1 [5, 5]] _ [0, 0]
    (by simp only [List.map_cons, List.map_nil, h1]) h2
    (by intro x hx; rw [List.mem_singleton] at hx; subst hx; decide +kernel)
  rw [List.flatten_singleton] at this
  exact this

/-! ## C22: totality on 64-bit platforms -/

theorem wrap64 (x : Int) (h0 : -2 ^ 63 ≤ x) (h1 : x < 2 ^ 63) : wrapInt 64 x = x := by
  unfold wrapInt
  apply Int.bmod_eq_of_le <;> omega

/-- One iteration of the machine on 64 bits, against `finalizeLoop`. -/
theorem finalizeStep64 (enc : BucketEncryptor) (secret contents : Bytes)
    (hc : contents.length < 2 ^ 62) (offset : Nat) (ho : offset ≤ contents.length) :
    (∃ o, finalizeStep 64 E enc secret contents offset = .done o ∧
      finalizeLoop E enc secret contents offset = o) ∨
    (∃ offset' : Nat, finalizeStep 64 E enc secret contents offset = .next offset' ∧
      offset + 25 ≤ offset' ∧ offset' ≤ contents.length ∧
      finalizeLoop E enc secret contents offset = finalizeLoop E enc secret contents offset') := by
  have hH : ((HeaderSize : Nat) : Int) = 25 := rfl
  by_cases hend : contents.length < offset + 25
  · left
    refine ⟨_, ?_, finalizeLoop_end E enc secret contents offset hend⟩
    unfold finalizeStep
    rw [if_pos]
    rw [hH, wrap64 _ (by omega) (by omega)]
    omega
  · obtain ⟨tag, f, len, rest, ht, hr⟩ := split_header (contents.drop offset)
      (by rw [List.length_drop]; omega)
    have hpre : (contents.take offset).length = offset := by rw [List.length_take]; omega
    have e : contents = contents.take offset ++ (tag ++ ([f] ++ (be32 len ++ rest))) := by
      rw [← hr, List.take_append_drop]
    have hlen : contents.length = offset + 25 + rest.length := by
      have := congrArg List.length hr
      simp [ht] at this
      omega
    have hloop := finalizeLoop_step E enc secret (contents.take offset) tag f len rest ht
    rw [hpre, ← e] at hloop
    have hl32 := len.toNat_lt
    have hstep : finalizeStep 64 E enc secret contents offset =
        (if rest.length < len.toNat then Step.done (.ret NotInBreach none (some .bucketParse))
         else if Spec.keyTag E.sha256 secret = tag then
          Step.done (match enc.decryptBody E secret (rest.take len.toNat) with
            | .panic p => .panic p
            | .err e => .ret NotInBreach none (some e)
            | .ok m => .ret (MetadataType.toBreachStatus (f ^^^ flagPad E secret)) (some m) none)
         else Step.next ((offset + 25 + len.toNat : Nat) : Int)) := by
      unfold finalizeStep
      have h1 : sliceInt contents offset contents.length = .ok (tag ++ ([f] ++ (be32 len ++ rest))) := by
        unfold sliceInt
        rw [if_pos (by omega), ← hr]
        simp
      rw [if_neg (by rw [hH, wrap64 _ (by omega) (by omega)]; omega), h1]
      simp only [Res.ok_bind]
      rw [decryptHeader_parts E enc secret tag f len rest ht]
      dsimp only
      have w1 : wrapInt 64 ((offset : Int) + (HeaderSize : Nat)) = ((offset + 25 : Nat) : Int) := by
        rw [hH, wrap64 _ (by omega) (by omega)]; omega
      have w2 : wrapInt 64 (len.toNat : Int) = (len.toNat : Int) := wrap64 _ (by omega) (by omega)
      rw [w1, w2]
      have w3 : wrapInt 64 (((offset + 25 : Nat) : Int) + (len.toNat : Int)) =
          ((offset + 25 + len.toNat : Nat) : Int) := by
        rw [wrap64 _ (by omega) (by omega)]; omega
      rw [w3]
      by_cases hp : rest.length < len.toNat
      · rw [if_pos (by omega), if_pos hp]
      · rw [if_neg (by omega), if_neg hp]
        by_cases hk : Spec.keyTag E.sha256 secret = tag
        · rw [if_pos (by simpa using hk), if_pos hk]
          have h2 : sliceInt contents ((offset + 25 : Nat) : Int) ((offset + 25 + len.toNat : Nat) : Int) =
              .ok (rest.take len.toNat) := by
            unfold sliceInt
            rw [if_pos (by omega)]
            refine congrArg Res.ok ?_
            have e' : contents = (contents.take offset ++ (tag ++ ([f] ++ be32 len))) ++ rest := by
              conv_lhs => rw [e]
              simp
            have hl' : (contents.take offset ++ (tag ++ ([f] ++ be32 len))).length = offset + 25 := by
              simp [ht]; omega
            rw [Int.toNat_natCast, Int.toNat_natCast]
            conv_lhs => rw [e']
            rw [List.take_append, List.take_of_length_le (by omega), List.drop_left' hl', hl',
              Nat.add_sub_cancel_left]
          rw [h2]
          simp only [Res.ok_bind]
          cases enc.decryptBody E secret (rest.take len.toNat) <;> rfl
        · rw [if_neg (by simpa using hk), if_neg hk]
    rw [hstep, hloop]
    by_cases hp : rest.length < len.toNat
    · left; rw [if_pos hp, if_pos hp]; exact ⟨_, rfl, rfl⟩
    · rw [if_neg hp, if_neg hp]
      by_cases hk : Spec.keyTag E.sha256 secret = tag
      · left; rw [if_pos hk, if_pos hk]; exact ⟨_, rfl, rfl⟩
      · right; rw [if_neg hk, if_neg hk]; exact ⟨_, rfl, by omega, by omega, rfl⟩

theorem finalizeRun_done {w : Nat} {enc : BucketEncryptor} {secret contents : Bytes} {offset : Int}
    {o : Out} (n : Nat) (h : finalizeStep w E enc secret contents offset = .done o) :
    finalizeRun w E enc secret contents (n + 1) offset = some o := by
  unfold finalizeRun; rw [h]

theorem finalizeRun_next {w : Nat} {enc : BucketEncryptor} {secret contents : Bytes} {offset o : Int}
    (n : Nat) (h : finalizeStep w E enc secret contents offset = .next o) :
    finalizeRun w E enc secret contents (n + 1) offset = finalizeRun w E enc secret contents n o := by
  conv_lhs => unfold finalizeRun
  rw [h]

theorem finalizeRun64 (enc : BucketEncryptor) (secret contents : Bytes)
    (hc : contents.length < 2 ^ 62) (n offset : Nat) (ho : offset ≤ contents.length)
    (hn : contents.length - offset < 25 * n) :
    finalizeRun 64 E enc secret contents n offset = some (finalizeLoop E enc secret contents offset) := by
  induction n generalizing offset with
  | zero => exact absurd hn (by rw [Nat.mul_zero]; exact Nat.not_lt_zero _)
  | succ n ih =>
    rcases finalizeStep64 E enc secret contents hc offset ho with ⟨o, h1, h2⟩ | ⟨o', h1, h2, h3, h4⟩
    · rw [finalizeRun_done E n h1, h2]
    · rw [finalizeRun_next E n h1, h4]
      exact ih o' h3 (by clear ih hc; omega)

/-- C22: with 64-bit integers and any bucket that fits in memory (fewer than 2^62 bytes), the loop of
`Finalize` ends after at most `len/25 + 1` iterations, without a panic. -/
theorem C22_terminates (enc : BucketEncryptor) (secret contents : Bytes)
    (hc : contents.length < 2 ^ 62) :
    ∃ status metadata err,
      finalizeRun 64 E enc secret contents (contents.length / 25 + 1) 0 =
        some (.ret status metadata err) ∧
      finalizeLoop E enc secret contents 0 = .ret status metadata err := by
  have h := finalizeRun64 E enc secret contents hc (contents.length / 25 + 1) 0 (by omega) (by omega)
  have hret : ∃ status metadata err,
      finalizeLoop E enc secret contents 0 = .ret status metadata err := by
    obtain ⟨es, tail, _, _, h⟩ := C25_every_bucket E enc secret contents
    rcases h with ⟨_, h⟩ | ⟨_, _, _, _, _, _, _, h⟩ <;> rw [h]
    all_goals
      cases Spec.firstMatch E.sha256 secret es with
      | none => exact ⟨_, _, _, rfl⟩
      | some e => simp only [openResult]; split <;> exact ⟨_, _, _, rfl⟩
  obtain ⟨a, b, c, hl⟩ := hret
  exact ⟨a, b, c, by rw [← hl]; exact h, hl⟩

/-- C22: `Finalize` returns, without a panic, for every response: any version, any element bytes and
any bucket contents. -/
theorem C22_finalize_total (ctx : ClientRequestContext) (resp : ServerResponse) :
    ∃ status metadata err, ctx.finalize E resp = .ret status metadata err := by
  obtain ⟨a, b, c, h, _⟩ := C25_error_safe E ctx resp
  exact ⟨a, b, c, h⟩

/-! ## C23: 32-bit platforms -/

/-- C23: with 32-bit integers there is, for every secret, a 25-byte bucket on which the loop never
ends: its length field is `0xffffffe7`, i.e. -25. -/
theorem C23_hangs (enc : BucketEncryptor) (secret : Bytes) :
    ∃ contents : Bytes, contents.length = 25 ∧
      ∀ n, finalizeRun 32 E enc secret contents n 0 = none := by
  obtain ⟨tag, ht, hne⟩ : ∃ tag : Bytes, tag.length = 20 ∧ Spec.keyTag E.sha256 secret ≠ tag := by
    by_cases h : Spec.keyTag E.sha256 secret = List.replicate 20 0
    · exact ⟨List.replicate 20 1, by simp, by rw [h]; decide⟩
    · exact ⟨List.replicate 20 0, by simp, h⟩
  refine ⟨tag ++ ([0] ++ (be32 0xffffffe7 ++ [])), by simp [ht], ?_⟩
  have hstep : finalizeStep 32 E enc secret (tag ++ ([0] ++ (be32 0xffffffe7 ++ []))) 0 = .next 0 := by
    have hl : (tag ++ ([0] ++ (be32 0xffffffe7 ++ [])) : Bytes).length = 25 := by simp [ht]
    unfold finalizeStep
    rw [hl, if_neg (by decide)]
    have h1 : sliceInt (tag ++ ([0] ++ (be32 0xffffffe7 ++ []))) 0 (25 : Nat) =
        .ok (tag ++ ([0] ++ (be32 0xffffffe7 ++ []))) := by
      unfold sliceInt
      rw [if_pos (by rw [hl]; omega)]
      congr 1
      rw [List.take_of_length_le (by rw [hl]; decide)]
      rfl
    rw [h1]
    simp only [Res.ok_bind]
    rw [decryptHeader_parts E enc secret tag _ _ _ ht]
    have w1 : wrapInt 32 ((0 : Int) + (HeaderSize : Nat)) = 25 := by decide
    have w2 : wrapInt 32 (((0xffffffe7 : UInt32).toNat : Nat) : Int) = -25 := by decide
    have w3 : wrapInt 32 ((25 : Int) + -25) = 0 := by decide
    simp only [decide_eq_false hne, w1, w2, w3]
    rw [if_neg (by decide)]
    simp
  intro n
  induction n with
  | zero => rfl
  | succ n ih => unfold finalizeRun; rw [hstep]; exact ih

/-- C23: and a 25-byte bucket on which it panics: the length field is -26, so the next offset is -1. -/
theorem C23_panics (enc : BucketEncryptor) (secret : Bytes) :
    ∃ contents : Bytes, contents.length = 25 ∧
      finalizeRun 32 E enc secret contents 2 0 = some (.panic .bounds) := by
  obtain ⟨tag, ht, hne⟩ : ∃ tag : Bytes, tag.length = 20 ∧ Spec.keyTag E.sha256 secret ≠ tag := by
    by_cases h : Spec.keyTag E.sha256 secret = List.replicate 20 0
    · exact ⟨List.replicate 20 1, by simp, by rw [h]; decide⟩
    · exact ⟨List.replicate 20 0, by simp, h⟩
  refine ⟨tag ++ ([0] ++ (be32 0xffffffe6 ++ [])), by simp [ht], ?_⟩
  have hl : (tag ++ ([0] ++ (be32 0xffffffe6 ++ [])) : Bytes).length = 25 := by simp [ht]
  have hstep : finalizeStep 32 E enc secret (tag ++ ([0] ++ (be32 0xffffffe6 ++ []))) 0 = .next (-1) := by
    unfold finalizeStep
    rw [hl, if_neg (by decide)]
    have h1 : sliceInt (tag ++ ([0] ++ (be32 0xffffffe6 ++ []))) 0 (25 : Nat) =
        .ok (tag ++ ([0] ++ (be32 0xffffffe6 ++ []))) := by
      unfold sliceInt
      rw [if_pos (by rw [hl]; omega)]
      congr 1
      rw [List.take_of_length_le (by rw [hl]; decide)]
      rfl
    rw [h1]
    simp only [Res.ok_bind]
    rw [decryptHeader_parts E enc secret tag _ _ _ ht]
    have w1 : wrapInt 32 ((0 : Int) + (HeaderSize : Nat)) = 25 := by decide
    have w2 : wrapInt 32 (((0xffffffe6 : UInt32).toNat : Nat) : Int) = -26 := by decide
    have w3 : wrapInt 32 ((25 : Int) + -26) = -1 := by decide
    simp only [decide_eq_false hne, w1, w2, w3]
    rw [if_neg (by decide)]
    simp
  have hstep2 : finalizeStep 32 E enc secret (tag ++ ([0] ++ (be32 0xffffffe6 ++ []))) (-1) =
      .done (.panic .bounds) := by
    unfold finalizeStep
    rw [hl, if_neg (by decide)]
    have h1 : sliceInt (tag ++ ([0] ++ (be32 0xffffffe6 ++ []))) (-1) (25 : Nat) = .panic .bounds := by
      unfold sliceInt
      rw [if_neg (by omega)]
    rw [h1]
    rfl
  simp only [finalizeRun, hstep, hstep2]

end Migp.Props
