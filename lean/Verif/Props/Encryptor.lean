import Verif.Lemmas.Encryptor
import Verif.Example.Ext
/-!
# C06-C11: the bucket encryptor

`E.sha256` is any function with 32-byte output: nothing here depends on its strength.
-/
namespace Migp.Props

variable (E : Ext) (enc : BucketEncryptor)

/-! ## C06: round trip -/

/-- C06: encrypting any flag and any body of at most 8160 bytes succeeds; decrypting the header of
the entry, followed by any bytes at all, passes the key check and gives the flag and the body
length; decrypting that many bytes after the header gives the body. -/
theorem C06_roundtrip (secret : Bytes) (flag : MetadataType) (body tail : Bytes)
    (h : body.length ≤ 8160) :
    ∃ c, enc.encrypt E secret flag body = .ok c ∧
      enc.decryptHeader E secret (c ++ tail) = .ok (true, flag, body.length) ∧
      enc.decryptBody E secret (((c ++ tail).drop 25).take body.length) = .ok body := by
  refine ⟨_, encrypt_ok E enc secret flag body h, ?_, ?_⟩
  · rw [entryParts]
    simp only [List.append_assoc]
    rw [decryptHeader_parts E enc secret _ _ _ _ (keyTag_length E secret)]
    simp only [UInt8.xor_assoc, UInt8.xor_self, UInt8.xor_zero, decide_true, UInt32.toNat_ofNat']
    rw [Nat.mod_eq_of_lt (by omega)]
  · have hl : (Spec.xor body (bodyPad E secret body.length)).length = body.length := by
      rw [xor_length, bodyPad_length E _ _ h]; omega
    have hd : ((entryParts E secret flag body ++ tail).drop 25).take body.length =
        Spec.xor body (bodyPad E secret body.length) := by
      have e : entryParts E secret flag body ++ tail =
          (Spec.keyTag E.sha256 secret ++ [flag ^^^ flagPad E secret] ++
            be32 (UInt32.ofNat body.length)) ++
            (Spec.xor body (bodyPad E secret body.length) ++ tail) := by
        simp [entryParts]
      rw [e, List.drop_left' (by simp [keyTag_length]), List.take_left' hl]
    rw [hd, decryptBody_ok E enc secret _ (by omega), hl, xor_xor _ _ (bodyPad_length E _ _ h).symm]

/-- Two metadata bodies, run through the model with the real SHA-256. -/
example : ((BucketEncryptor.hkdfSHA256.encrypt Example.ext [1, 2, 3] 2 (ascii "metadata")) >>= fun c =>
    BucketEncryptor.hkdfSHA256.decryptHeader Example.ext [1, 2, 3] c) = .ok (true, 2, 8) := by
  decide +kernel

/-! ## C07: size -/

/-- C07: `Encrypt` produces the documented format
`XOR(0^20 | flag, headerPad) | length | XOR(body, bodyPad)` with RFC 5869 pads, for bodies of up to
8160 bytes. -/
theorem C07_format (secret : Bytes) (flag : MetadataType) (body : Bytes) (h : body.length ≤ 8160) :
    enc.encrypt E secret flag body = .ok (Spec.entry E.sha256 secret flag body) := by
  rw [encrypt_ok E enc secret flag body h, entryParts_eq E secret flag body h]

/-- C07: it never panics and fails exactly for longer bodies. -/
theorem C07_limit (secret : Bytes) (flag : MetadataType) (body : Bytes) :
    ((enc.encrypt E secret flag body).IsErr ↔ 8160 < body.length) ∧
    ¬ (enc.encrypt E secret flag body).IsPanic := by
  by_cases h : 8160 < body.length
  · rw [encrypt_err E enc secret flag body h]; simp [h]
  · rw [encrypt_ok E enc secret flag body (by omega)]; simp; omega

/-- C07: the size of an entry, and the position of the plaintext length field. -/
theorem C07_size (secret : Bytes) (flag : MetadataType) (body c : Bytes)
    (h : enc.encrypt E secret flag body = .ok c) :
    c.length = 25 + body.length ∧
    ((c.drop 21).take 4).foldl (fun n b => 256 * n + b.toNat) 0 = body.length := by
  have hb : body.length ≤ 8160 := by
    by_contra hb
    rw [encrypt_err E enc secret flag body (by omega)] at h
    cases h
  rw [encrypt_ok E enc secret flag body hb] at h
  injection h with h
  subst h
  refine ⟨entryParts_length E secret flag body hb, ?_⟩
  have e : entryParts E secret flag body =
      (Spec.keyTag E.sha256 secret ++ [flag ^^^ flagPad E secret]) ++
        (be32 (UInt32.ofNat body.length) ++ Spec.xor body (bodyPad E secret body.length)) := by
    simp [entryParts]
  rw [e, List.drop_left' (by simp [keyTag_length]), List.take_left' (by simp), be32_ofNat _ (by omega)]
  simp only [List.foldl_cons, List.foldl_nil, UInt8.toNat_ofNat']
  omega

/-- Both sides of the limit occur. -/
example : (enc.encrypt E [1] 1 (List.replicate 8160 7)).IsOk ∧
    (enc.encrypt E [1] 1 (List.replicate 8161 7)).IsErr := by
  constructor
  · rw [encrypt_ok E enc _ _ _ (by rw [List.length_replicate])]; exact ⟨_, rfl⟩
  · rw [encrypt_err E enc _ _ _ (by rw [List.length_replicate]; decide)]; exact ⟨_, rfl⟩

/-! ## C08: the key check -/

/-- C08: a header encrypted under `s1` is accepted under `s2` iff the two 20-byte key tags (the first
20 bytes of HKDF output) are equal. -/
theorem C08_accepts_iff (s1 s2 : Bytes) (flag : MetadataType) (body c tail : Bytes)
    (h : enc.encrypt E s1 flag body = .ok c) :
    ∃ accept flag' len, enc.decryptHeader E s2 (c ++ tail) = .ok (accept, flag', len) ∧
      len = body.length ∧
      (accept = true ↔ Spec.keyTag E.sha256 s2 = Spec.keyTag E.sha256 s1) := by
  have hb : body.length ≤ 8160 := by
    by_contra hb
    rw [encrypt_err E enc s1 flag body (by omega)] at h
    cases h
  rw [encrypt_ok E enc s1 flag body hb] at h
  injection h with h
  subst h
  have hd := decryptHeader_parts E enc s2 (Spec.keyTag E.sha256 s1) (flag ^^^ flagPad E s1)
    (UInt32.ofNat body.length) (Spec.xor body (bodyPad E s1 body.length) ++ tail) (keyTag_length E s1)
  have hc : entryParts E s1 flag body ++ tail = Spec.keyTag E.sha256 s1 ++ ([flag ^^^ flagPad E s1] ++
      (be32 (UInt32.ofNat body.length) ++ (Spec.xor body (bodyPad E s1 body.length) ++ tail))) := by
    simp [entryParts]
  rw [hc]
  refine ⟨_, _, _, hd, ?_, by simp⟩
  rw [UInt32.toNat_ofNat', Nat.mod_eq_of_lt (by omega)]

/-- C08: so a secret that opens a header of another secret collides with this very secret under
`secret ↦ HKDF(secret)[0..20)`. -/
theorem C08_commitment (s1 s2 : Bytes) (flag flag' : MetadataType) (body c tail : Bytes) (len : Nat)
    (h : enc.encrypt E s1 flag body = .ok c) (ho : enc.decryptHeader E s2 (c ++ tail) = .ok (true, flag', len)) :
    Spec.hkdf E.sha256 s1 (ascii "MIGP derive pad header") [] 20 =
      Spec.hkdf E.sha256 s2 (ascii "MIGP derive pad header") [] 20 := by
  obtain ⟨accept, f, l, h1, _, h3⟩ := C08_accepts_iff E enc s1 s2 flag body c tail h
  rw [ho] at h1
  injection h1 with h1
  have : accept = true := (congrArg Prod.fst h1).symm
  exact (h3.mp this).symm

/-- A rejected entry, with the real hash. -/
example : ((BucketEncryptor.hkdfSHA256.encrypt Example.ext [1, 2, 3] 2 (ascii "metadata")) >>= fun c =>
    BucketEncryptor.hkdfSHA256.decryptHeader Example.ext [1, 2, 4] c >>= fun r => .ok r.1) =
      .ok false := by
  decide +kernel

/-! ## C09: totality and locality of `DecryptHeader` -/

/-- C09: `DecryptHeader` never panics, and errs exactly on fewer than 25 bytes. -/
theorem C09_total (secret c : Bytes) :
    ¬ (enc.decryptHeader E secret c).IsPanic ∧
    ((enc.decryptHeader E secret c).IsErr ↔ c.length < 25) := by
  by_cases h : c.length < 25
  · rw [decryptHeader_short E enc secret c h]; simp [h]
  · obtain ⟨tag, f, len, rest, ht, rfl⟩ := split_header c (by omega)
    rw [decryptHeader_parts E enc secret tag f len rest ht]
    refine ⟨by simp, ?_⟩
    simp only [Res.isErr_ok, false_iff]
    exact h

/-- C09: its result depends only on the secret and the first 25 bytes. -/
theorem C09_local (secret c d : Bytes) (hc : 25 ≤ c.length) (hd : 25 ≤ d.length)
    (h : c.take 25 = d.take 25) :
    enc.decryptHeader E secret c = enc.decryptHeader E secret d := by
  have key : ∀ x : Bytes, 25 ≤ x.length →
      enc.decryptHeader E secret x = enc.decryptHeader E secret (x.take 25) := by
    intro x hx
    obtain ⟨tag, f, len, rest, ht, rfl⟩ := split_header x hx
    have e : (tag ++ ([f] ++ (be32 len ++ rest))).take 25 = tag ++ ([f] ++ (be32 len ++ [])) := by
      have : tag ++ ([f] ++ (be32 len ++ rest)) = (tag ++ ([f] ++ (be32 len ++ []))) ++ rest := by simp
      rw [this, List.take_left' (by simp [ht])]
    rw [e, decryptHeader_parts E enc secret tag f len rest ht,
      decryptHeader_parts E enc secret tag f len [] ht]
  rw [key c hc, key d hd, h]

/-- C09: `DecryptBody` never panics either, and errs exactly on more than 8160 bytes. -/
theorem C09_body_total (secret c : Bytes) :
    ¬ (enc.decryptBody E secret c).IsPanic ∧
    ((enc.decryptBody E secret c).IsErr ↔ 8160 < c.length) := by
  by_cases h : 8160 < c.length
  · rw [decryptBody_err E enc secret c h]; simp [h]
  · rw [decryptBody_ok E enc secret c (by omega)]; simp; omega

/-! ## C10: malleability -/

/-- What somebody without any key can do to an entry: XOR `df` into byte 20 and `db` into the bytes
from 25 on. -/
def tamper (c : Bytes) (df : UInt8) (db : Bytes) : Bytes :=
  Spec.xor c (List.replicate 20 0 ++ [df] ++ List.replicate 4 0 ++ db)

/-- C10: the tampered entry is still accepted under the original secret, and decrypts to the flag and
body with the chosen differences. -/
theorem C10_malleable (secret : Bytes) (flag df : MetadataType) (body db c : Bytes)
    (h : enc.encrypt E secret flag body = .ok c) (hl : db.length = body.length) :
    enc.decryptHeader E secret (tamper c df db) = .ok (true, flag ^^^ df, body.length) ∧
    enc.decryptBody E secret ((tamper c df db).drop 25) = .ok (Spec.xor body db) := by
  have hb : body.length ≤ 8160 := by
    by_contra hb
    rw [encrypt_err E enc secret flag body (by omega)] at h
    cases h
  have hkey : tamper c df db = entryParts E secret (flag ^^^ df) (Spec.xor body db) := by
    rw [encrypt_ok E enc secret flag body hb] at h
    injection h with h
    subst h
    have hx : (Spec.xor body db).length = body.length := by rw [xor_length]; omega
    unfold tamper entryParts
    simp only [List.append_assoc]
    rw [xor_append _ _ _ _ (by simp [keyTag_length]), xor_comm _ (List.replicate 20 0),
      xor_zero _ _ (keyTag_length E secret).symm, xor_append _ _ _ _ (by simp),
      xor_append _ _ _ _ (by simp), xor_comm _ (List.replicate 4 0), xor_zero _ _ (by simp), hx]
    congr 2
    · simp only [Spec.xor, List.zipWith_cons_cons, List.zipWith_nil_left]
      rw [UInt8.xor_assoc, UInt8.xor_comm (flagPad E secret), UInt8.xor_assoc]
    · congr 1
      rw [xor_assoc, xor_comm _ db, ← xor_assoc]
  have hx : (Spec.xor body db).length = body.length := by rw [xor_length]; omega
  obtain ⟨c', h1, h2, h3⟩ := C06_roundtrip E enc secret (flag ^^^ df) (Spec.xor body db) []
    (by omega)
  rw [encrypt_ok E enc secret _ _ (by omega)] at h1
  injection h1 with h1
  rw [List.append_nil] at h2 h3
  have hlen : (c'.drop 25).length = (Spec.xor body db).length := by
    rw [← h1, List.length_drop, entryParts_length E _ _ _ (by omega)]; omega
  rw [List.take_of_length_le (by omega)] at h3
  rw [hkey, h1, h2, h3, hx]
  exact ⟨rfl, rfl⟩

/-- C10: ciphertext integrity is false: there is a way to change entries, which knows no secret (nor the hash), that makes of
every entry for a breached password with a non-empty body an accepted entry that says "dummy" and has different metadata. -/
theorem C10_integrity_false : ∃ forge : Bytes → Bytes, ∀ (E : Ext) (enc : BucketEncryptor) (secret body c : Bytes),
    enc.encrypt E secret MetadataBreachedPassword body = .ok c → body ≠ [] →
    ∃ body', enc.decryptHeader E secret (forge c) = .ok (true, MetadataDummy, body.length) ∧
      enc.decryptBody E secret ((forge c).drop 25) = .ok body' ∧ body' ≠ body := by
  refine ⟨fun c => tamper c 1 (List.replicate (c.length - 25) 1), fun E enc secret body c h hne => ?_⟩
  have hl : c.length - 25 = body.length := by have := (C07_size E enc secret _ body c h).1; omega
  have := C10_malleable E enc secret MetadataBreachedPassword 1 body (List.replicate body.length 1) c h
    (by simp)
  dsimp only
  rw [hl]
  refine ⟨_, this.1, this.2, ?_⟩
  cases body with
  | nil => exact absurd rfl hne
  | cons x xs =>
    simp only [List.length_cons, List.replicate_succ, Spec.xor, List.zipWith_cons_cons]
    intro hx
    injection hx with hx _
    have := congrArg (x ^^^ ·) hx
    simp only [← UInt8.xor_assoc, UInt8.xor_self, UInt8.zero_xor] at this
    exact absurd this (by decide)

/-! ## C11: deterministic pads -/

theorem xor_pads (a b p : Bytes) :
    Spec.xor (Spec.xor a (p.take a.length)) (Spec.xor b (p.take b.length)) =
      (Spec.xor a b).take p.length := by
  induction a generalizing b p with
  | nil => simp [Spec.xor]
  | cons x xs ih =>
    cases b with
    | nil => simp [Spec.xor]
    | cons y ys =>
      cases p with
      | nil => simp [Spec.xor]
      | cons z zs =>
        have := ih ys zs
        simp only [Spec.xor, List.length_cons, List.take_succ_cons, List.zipWith_cons_cons] at this ⊢
        rw [this]
        congr 1
        rw [UInt8.xor_assoc, UInt8.xor_comm z, UInt8.xor_assoc y, UInt8.xor_self, UInt8.xor_zero]

/-- C11: two entries under the same secret: equal first 20 bytes; the XOR of the two bytes 20 is the
XOR of the flags; the XOR of the bytes from 25 on (on the common length) is the XOR of the
bodies. No key is used on the left-hand sides. -/
theorem C11_two_time_pad (secret : Bytes) (f1 f2 : MetadataType) (b1 b2 c1 c2 : Bytes)
    (h1 : enc.encrypt E secret f1 b1 = .ok c1) (h2 : enc.encrypt E secret f2 b2 = .ok c2) :
    c1.take 20 = c2.take 20 ∧
    Spec.xor ((c1.drop 20).take 1) ((c2.drop 20).take 1) = [f1 ^^^ f2] ∧
    Spec.xor (c1.drop 25) (c2.drop 25) = Spec.xor b1 b2 := by
  have hb : ∀ (f : MetadataType) (b c : Bytes), enc.encrypt E secret f b = .ok c →
      b.length ≤ 8160 ∧ c = entryParts E secret f b := by
    intro f b c h
    by_cases hb : b.length ≤ 8160
    · rw [encrypt_ok E enc secret f b hb] at h
      injection h with h
      exact ⟨hb, h.symm⟩
    · rw [encrypt_err E enc secret f b (by omega)] at h
      cases h
  obtain ⟨l1, rfl⟩ := hb _ _ _ h1
  obtain ⟨l2, rfl⟩ := hb _ _ _ h2
  have hk := keyTag_length E secret
  have d20 : ∀ f b, (entryParts E secret f b).drop 20 = [f ^^^ flagPad E secret] ++
      (be32 (UInt32.ofNat b.length) ++ Spec.xor b (bodyPad E secret b.length)) := by
    intro f b; rw [entryParts, List.drop_left' hk]
  have d25 : ∀ f b, (entryParts E secret f b).drop 25 = Spec.xor b (bodyPad E secret b.length) := by
    intro f b
    have : (entryParts E secret f b).drop 25 = ((entryParts E secret f b).drop 20).drop 5 := by simp
    rw [this, d20]; rfl
  refine ⟨?_, ?_, ?_⟩
  · rw [entryParts, entryParts, List.take_left' hk, List.take_left' hk]
  · rw [d20, d20]
    rw [List.take_left' (i := 1) rfl, List.take_left' (i := 1) rfl]
    simp only [Spec.xor, List.zipWith_cons_cons, List.zipWith_nil_left]
    rw [UInt8.xor_assoc, UInt8.xor_comm (flagPad E secret), UInt8.xor_assoc, UInt8.xor_self,
      UInt8.xor_zero]
  · rw [d25, d25]
    have t : ∀ n, n ≤ 8160 → bodyPad E secret n = (bodyPad E secret 8160).take n := by
      intro n hn; rw [bodyPad, bodyPad, hkdf_take _ _ _ _ _ _ hn]
    rw [t _ l1, t _ l2, xor_pads, bodyPad_length E _ _ (by omega), List.take_of_length_le]
    rw [xor_length]; omega

end Migp.Props
