import Verif.Lemmas.Protocol
import Verif.Props.Encryptor
/-!
# C02, C03, C05, C12-C14, C58: constructors, buckets, and entry keys at the level of the API
-/
namespace Migp.Props

variable {E : Ext}

/-! ## C12: constructors -/

/-- C12: `NewClient` succeeds iff the identifiers are supported. Nothing else in the configuration
matters; in particular the bit size is not looked at. -/
theorem C12_newClient_iff (cfg : Config) :
    (NewClient E cfg).IsOk ↔
      cfg.bucketHasherID.toNat = 1 ∧ cfg.slowHasherID.toNat ≤ 1 ∧ cfg.bucketEncryptorID.toNat = 1 ∧
      (E.suites cfg.oprfSuite).isSome := by
  constructor
  · rintro ⟨c, h⟩
    obtain ⟨slow, S, h1, h2, h3, h4, -⟩ := newClient_ok h
    refine ⟨by rw [h1]; rfl, ?_, by rw [h2]; rfl, by simp [h4]⟩
    rcases newSlowHasher_ok h3 with ⟨e, -⟩ | ⟨e, -⟩ <;> rw [e] <;> decide
  · rintro ⟨h1, h2, h3, h4⟩
    obtain ⟨S, hS⟩ := Option.isSome_iff_exists.mp h4
    have e1 : cfg.bucketHasherID = BucketHasherSHA256 := UInt16.toNat_inj.mp h1
    have e3 : cfg.bucketEncryptorID = BucketEncryptorHKDFSHA256 := UInt16.toNat_inj.mp h3
    have e2 : cfg.slowHasherID = 0 ∨ cfg.slowHasherID = 1 := by
      rcases Nat.le_one_iff_eq_zero_or_eq_one.mp h2 with h | h
      · exact Or.inl (UInt16.toNat_inj.mp h)
      · exact Or.inr (UInt16.toNat_inj.mp h)
    unfold NewClient NewBucketHasher NewBucketEncryptor
    rw [if_pos e1, if_pos e3]
    rcases e2 with e2 | e2 <;> simp [NewSlowHasher, e2, hS, SlowHasherNull, SlowHasherScrypt]

/-- C12: `NewServer` succeeds iff the identifiers are supported and the OPRF library takes the
key. -/
theorem C12_newServer_iff (cfg : ServerConfig) :
    (NewServer E cfg).IsOk ↔
      cfg.bucketHasherID.toNat = 1 ∧ cfg.slowHasherID.toNat ≤ 1 ∧ cfg.bucketEncryptorID.toNat = 1 ∧
      (E.suites cfg.oprfSuite).isSome ∧ E.keyOK cfg.oprfSuite cfg.privateKey = true := by
  constructor
  · rintro ⟨c, h⟩
    obtain ⟨slow, S, h1, h2, h3, h4, h5, -⟩ := newServer_ok h
    refine ⟨by rw [h1]; rfl, ?_, by rw [h2]; rfl, by simp [h4], h5⟩
    rcases newSlowHasher_ok h3 with ⟨e, -⟩ | ⟨e, -⟩ <;> rw [e] <;> decide
  · rintro ⟨h1, h2, h3, h4, h5⟩
    obtain ⟨S, hS⟩ := Option.isSome_iff_exists.mp h4
    have e1 : cfg.bucketHasherID = BucketHasherSHA256 := UInt16.toNat_inj.mp h1
    have e3 : cfg.bucketEncryptorID = BucketEncryptorHKDFSHA256 := UInt16.toNat_inj.mp h3
    have e2 : cfg.slowHasherID = 0 ∨ cfg.slowHasherID = 1 := by
      rcases Nat.le_one_iff_eq_zero_or_eq_one.mp h2 with h | h
      · exact Or.inl (UInt16.toNat_inj.mp h)
      · exact Or.inr (UInt16.toNat_inj.mp h)
    unfold NewServer NewBucketHasher NewBucketEncryptor
    rw [if_pos e1, if_pos e3]
    rcases e2 with e2 | e2 <;> simp [NewSlowHasher, e2, hS, h5, SlowHasherNull, SlowHasherScrypt]

/-- C12: the constructors never panic. -/
theorem C12_no_panic (cfg : ServerConfig) :
    ¬ (NewClient E cfg.toConfig).IsPanic ∧ ¬ (NewServer E cfg).IsPanic := by
  constructor <;> rintro ⟨p, h⟩
  · unfold NewClient NewBucketHasher NewSlowHasher NewBucketEncryptor at h
    split at h <;> (try split at h) <;> (try split at h) <;> (try split at h) <;> simp at h <;>
      (try split at h) <;> cases h
  · unfold NewServer NewBucketHasher NewSlowHasher NewBucketEncryptor at h
    split at h <;> (try split at h) <;> (try split at h) <;> (try split at h) <;> simp at h <;>
      (try split at h) <;> (try split at h) <;> (try cases h)

/-- C12: the default configuration is always accepted by the client, and by the server for every
key the library generates for the default suite. -/
theorem C12_default (key : PrivateKey) (hk : E.keyOK 3 key = true) :
    (NewClient E DefaultConfig).IsOk ∧ (NewServer E (DefaultServerConfig key)).IsOk := by
  obtain ⟨S, hS, _⟩ := E.default_suite
  have hS' : (E.suites DefaultConfig.oprfSuite).isSome := by
    have : E.suites DefaultConfig.oprfSuite = some S := hS
    simp [this]
  exact ⟨(C12_newClient_iff _).mpr ⟨by decide, by decide, by decide, hS'⟩,
    (C12_newServer_iff _).mpr ⟨rfl, Nat.le_refl 1, rfl, hS', hk⟩⟩

/-- The example suite accepts the default configuration, and a configuration with bit size 99. -/
example : (NewServer Example.ext (DefaultServerConfig ⟨7⟩)).IsOk ∧
    (NewClient Example.ext { DefaultConfig with bucketIDBitSize := 99 }).IsOk :=
  ⟨(C12_default _ (by decide)).2, (C12_newClient_iff _).mpr ⟨by decide, by decide, by decide, by
    simp [Example.ext, DefaultConfig, DefaultOPRFSuite]⟩⟩

/-! ## C58: the slow hash -/

/-- C58: a slow hasher that `NewSlowHasher` returns never fails or panics: the null hasher returns its
input, and scrypt's fixed parameters pass scrypt's validation and give 32 bytes. -/
theorem C58_slow_hash (id : UInt16) (h : SlowHasher) (e : NewSlowHasher id = .ok h) (x : Bytes) :
    ∃ y, h.hash E x = .ok y ∧
      ((id.toNat = 0 ∧ y = x) ∨
       (id.toNat = 1 ∧ y = E.scryptCore x (ascii "MIGP slow hash") 16384 8 1 32 ∧ y.length = 32)) := by
  refine ⟨_, slowHash_ok E e x, ?_⟩
  rcases newSlowHasher_ok e with ⟨rfl, -⟩ | ⟨rfl, -⟩
  · exact Or.inl ⟨rfl, rfl⟩
  · exact Or.inr ⟨rfl, rfl, E.scrypt_len _ _ _ _ _ _⟩

/-- C58: deriving the key of an entry is a function of the configuration and the credential: two
servers built from the same configuration derive the same key. -/
theorem C58_deterministic (cfg : ServerConfig) (s s' : Server) (h : NewServer E cfg = .ok s)
    (h' : NewServer E cfg = .ok s') (u p : Bytes) :
    s.deriveBucketEntryKey E u p = s'.deriveBucketEntryKey E u p := by
  rw [h] at h'; injection h' with h'; rw [h']

/-- The parameter validation does reject other parameters: N = 16385 would panic. -/
example : ((SlowHasher.scrypt SlowHashSalt 16385 8 1 32).hash Example.ext [1]).IsPanic :=
  ⟨.scryptParams, by decide⟩
example : (NewSlowHasher 1).IsOk ∧ (NewSlowHasher 2).IsErr :=
  ⟨⟨_, rfl⟩, ⟨_, rfl⟩⟩

/-! ## C13: `Config()` -/

/-- C13: `Config()` gives back exactly the configuration the server was built from. -/
theorem C13_config (cfg : ServerConfig) (s : Server) (h : NewServer E cfg = .ok s) :
    s.config = cfg := by
  obtain ⟨slow, S, h1, h2, h3, h4, h5, rfl⟩ := newServer_ok h
  have e : slow.id = cfg.slowHasherID := by
    rcases newSlowHasher_ok h3 with ⟨e, rfl⟩ | ⟨e, rfl⟩ <;> rw [e] <;> rfl
  obtain ⟨⟨v, b, bh, sl, en, su⟩, k⟩ := cfg
  simp only at h1 h2 e
  simp only [Server.config, e, ServerConfig.mk.injEq, Config.mk.injEq, and_true, true_and]
  exact ⟨h1.symm, h2.symm⟩

/-- C13: rebuilding a server from its `Config()` gives an equal server. -/
theorem C13_rebuild (cfg : ServerConfig) (s : Server) (h : NewServer E cfg = .ok s) :
    NewServer E s.config = .ok s := by
  rw [C13_config cfg s h, h]

/-! ## C03, C12: bucket IDs through the API -/

/-- C03: `BucketID` of a client is the number formed by the first `bucketIDBitSize` bits of the SHA-256
of the framed username, for usernames of at most 65536 bytes and bit sizes in 0..32. -/
theorem C03_client_bucketID (cfg : Config) (c : Client) (h : NewClient E cfg = .ok c) (u : Bytes)
    (hu : u.length ≤ 65536) (h0 : 0 ≤ cfg.bucketIDBitSize) (h32 : cfg.bucketIDBitSize ≤ 32) :
    ∃ id, c.bucketID E u = .ok id ∧
      id.toNat = Spec.bucketNumber E cfg.bucketIDBitSize.toNat u ∧
      id.toNat < 2 ^ cfg.bucketIDBitSize.toNat := by
  obtain ⟨slow, S, _, _, _, _, rfl⟩ := newClient_ok h
  obtain ⟨id, h1, h2⟩ := bucketID_ok E u hu _ h0 h32
  refine ⟨id, h1, h2, ?_⟩
  rw [h2, Spec.bucketNumber]
  refine Nat.lt_of_lt_of_le (natOfBits_lt _) (Nat.pow_le_pow_right (by omega) ?_)
  rw [List.length_take]
  omega

/-- C03: it panics iff the bit size is out of range or the username is longer than 65536 bytes, and
never returns an error. -/
theorem C03_client_bucketID_panics_iff (cfg : Config) (c : Client) (h : NewClient E cfg = .ok c)
    (u : Bytes) :
    ((c.bucketID E u).IsPanic ↔
      cfg.bucketIDBitSize < 0 ∨ 32 < cfg.bucketIDBitSize ∨ 65536 < u.length) ∧
    ¬ (c.bucketID E u).IsErr := by
  by_cases hx : cfg.bucketIDBitSize < 0 ∨ 32 < cfg.bucketIDBitSize ∨ 65536 < u.length
  · obtain ⟨p, hp⟩ := bucketID_panic E u cfg.bucketIDBitSize (by omega)
    rw [client_bucketID_eq h, hp]; simp [hx]
  · obtain ⟨id, h1, _⟩ := C03_client_bucketID cfg c h u (by omega) (by omega) (by omega)
    rw [h1]; simp; omega

/-! ## C14: agreement -/

/-- C14: a client and a server with the same public configuration compute the same bucket (or the
same panic) for every username. -/
theorem C14_same_bucket (cfg : ServerConfig) (c : Client) (s : Server)
    (hc : NewClient E cfg.toConfig = .ok c) (hs : NewServer E cfg = .ok s) (u : Bytes) :
    c.bucketID E u = s.bucketID E u := by
  obtain ⟨slow, S, _, _, _, _, rfl⟩ := newClient_ok hc
  obtain ⟨slow', S', _, _, _, _, _, rfl⟩ := newServer_ok hs
  rfl

/-- C14: the bucketID string of any request the client makes is the hex form of the server's bucket
for that username. (That insert stores under this key is `C43_insert_appends`.) -/
theorem C14_request_bucket (cfg : ServerConfig) (c : Client) (s : Server)
    (hc : NewClient E cfg.toConfig = .ok c) (hs : NewServer E cfg = .ok s) (u p : Bytes)
    (r : ZMod c.suite.q) (req : ClientRequest) (ctx : ClientRequestContext)
    (h : c.request E u p r = .ok (req, ctx)) :
    ∃ id, s.bucketID E u = .ok id ∧ req.bucketID = BucketIDToHex id := by
  unfold Client.request at h
  obtain ⟨ser, _, h⟩ := Res.bind_eq_ok.mp h
  obtain ⟨inp, _, h⟩ := Res.bind_eq_ok.mp h
  obtain ⟨id, h1, h⟩ := Res.bind_eq_ok.mp h
  refine ⟨id, by rw [← C14_same_bucket cfg c s hc hs]; exact h1, ?_⟩
  injection h with h
  exact (congrArg (fun x => x.1.bucketID) h).symm

/-! ## C02, C12: panics of `Request` and `EncryptBucketEntry` -/

/-- C02/C12: `Request` panics exactly when a component is longer than 65536 bytes or the configured
bit size is outside 0..32, and never returns an error; so a client built with such a bit size panics
on every request. -/
theorem C02_request_panics_iff (cfg : Config) (c : Client) (h : NewClient E cfg = .ok c) (u p : Bytes)
    (r : ZMod c.suite.q) :
    ((c.request E u p r).IsPanic ↔
      65536 < u.length ∨ 65536 < p.length ∨ cfg.bucketIDBitSize < 0 ∨ 32 < cfg.bucketIDBitSize) ∧
    ¬ (c.request E u p r).IsErr := by
  by_cases hl : 65536 < u.length ∨ 65536 < p.length
  · have : c.request E u p r = .panic .lengthOverflow := by
      unfold Client.request; rw [serialize_panic u p hl]; rfl
    rw [this]
    refine ⟨⟨fun _ => by omega, fun _ => by simp⟩, by simp⟩
  · have hb := C03_client_bucketID_panics_iff cfg c h u
    have hslow : ∀ x, ∃ y, c.slowHasher.hash E x = .ok y := by
      intro x
      obtain ⟨slow, S, _, _, h3, _, rfl⟩ := newClient_ok h
      exact ⟨_, slowHash_ok E h3 x⟩
    obtain ⟨y, hy⟩ := hslow (Spec.credentialW u p)
    have e : c.request E u p r = (c.bucketID E u >>= fun id =>
        .ok ({ version := UInt32.ofNat c.version.toNat, bucketID := BucketIDToHex id,
               blindElement := c.suite.blind y r }, { client := c, input := y, blind := r })) := by
      unfold Client.request
      rw [serialize_eq u p (by omega) (by omega)]
      simp only [Res.ok_bind, hy]
    rw [e]
    cases hid : c.bucketID E u with
    | ok id => rw [hid] at hb; simp at hb ⊢; omega
    | err x => rw [hid] at hb; simp at hb
    | panic x => rw [hid] at hb; simp at hb ⊢; omega

/-- C12: a bit size outside 0..32 is accepted by the constructor and makes every request panic. -/
theorem C12_bad_bit_size_panics (cfg : Config) (c : Client) (h : NewClient E cfg = .ok c)
    (hb : cfg.bucketIDBitSize < 0 ∨ 32 < cfg.bucketIDBitSize) (u p : Bytes) (r : ZMod c.suite.q) :
    (c.request E u p r).IsPanic :=
  (C02_request_panics_iff cfg c h u p r).1.mpr (by omega)

/-- C02/C05: `EncryptBucketEntry` panics exactly when the flag is valid and a component is longer than
65536 bytes. -/
theorem C02_encryptBucketEntry_panics_iff (cfg : ServerConfig) (s : Server)
    (h : NewServer E cfg = .ok s) (u p : Bytes) (flag : MetadataType) (m : Bytes) :
    (s.encryptBucketEntry E u p flag m).IsPanic ↔
      flag.toNat ≤ 3 ∧ (65536 < u.length ∨ 65536 < p.length) := by
  by_cases hf : flag.toNat ≤ 3
  · by_cases hl : 65536 < u.length ∨ 65536 < p.length
    · rw [encryptBucketEntry_panic s u p flag m hf hl]; simp [hf, hl]
    · by_cases ht : Spec.tweak s.suite s.privateKey = 0
      · rw [encryptBucketEntry_zero h u p flag m hf (by omega) (by omega) ht]; simp [hl]
      · by_cases hm : m.length ≤ 8160
        · rw [encryptBucketEntry_ok h u p flag m hf (by omega) (by omega) ht hm]; simp [hl]
        · rw [encryptBucketEntry_long h u p flag m hf (by omega) (by omega) ht (by omega)]; simp [hl]
  · rw [encryptBucketEntry_invalid s u p flag m hf]; simp [hf]

/-- C05: an entry is only produced for the four declared flags; any other flag gives an error that
carries no entry, whatever the credential. -/
theorem C05_only_valid_flags (s : Server) (u p : Bytes) (flag : MetadataType) (m : Bytes) :
    (∀ c, s.encryptBucketEntry E u p flag m = .ok c → flag.toNat ≤ 3) ∧
    (3 < flag.toNat → (s.encryptBucketEntry E u p flag m).IsErr) := by
  by_cases hf : flag.toNat ≤ 3
  · exact ⟨fun _ _ => hf, fun h => by omega⟩
  · rw [encryptBucketEntry_invalid s u p flag m hf]
    exact ⟨fun c h => (by cases h), fun _ => ⟨_, rfl⟩⟩

/-- C05: exactly when `EncryptBucketEntry` succeeds, and with what: the entry format under the OPRF
output for the credential. -/
theorem C05_encryptBucketEntry_iff (cfg : ServerConfig) (s : Server) (h : NewServer E cfg = .ok s)
    (u p : Bytes) (flag : MetadataType) (m c : Bytes) :
    s.encryptBucketEntry E u p flag m = .ok c ↔
      flag.toNat ≤ 3 ∧ u.length ≤ 65536 ∧ p.length ≤ 65536 ∧ m.length ≤ 8160 ∧
      Spec.tweak s.suite s.privateKey ≠ 0 ∧
      c = Spec.entry E.sha256
        (Spec.oprf s.suite s.privateKey (Spec.oprfInput E cfg.slowHasherID u p)) flag m := by
  by_cases hf : flag.toNat ≤ 3
  · by_cases hl : 65536 < u.length ∨ 65536 < p.length
    · rw [encryptBucketEntry_panic s u p flag m hf hl]
      constructor
      · intro h; cases h
      · intro h; omega
    · by_cases ht : Spec.tweak s.suite s.privateKey = 0
      · rw [encryptBucketEntry_zero h u p flag m hf (by omega) (by omega) ht]
        simp [ht]
      · by_cases hm : m.length ≤ 8160
        · rw [encryptBucketEntry_ok h u p flag m hf (by omega) (by omega) ht hm,
            entryParts_eq E _ _ _ hm]
          constructor
          · intro h'; injection h' with h'
            exact ⟨hf, by omega, by omega, hm, ht, h'.symm⟩
          · rintro ⟨-, -, -, -, -, rfl⟩; rfl
        · rw [encryptBucketEntry_long h u p flag m hf (by omega) (by omega) ht (by omega)]
          simp [hm]
  · rw [encryptBucketEntry_invalid s u p flag m hf]; simp [hf]

/-- C11 through the API: two entries for the same credential under the same server, with no key on the
left-hand sides. -/
theorem C11_same_credential (cfg : ServerConfig) (s : Server) (h : NewServer E cfg = .ok s)
    (u p : Bytes) (f1 f2 : MetadataType) (m1 m2 c1 c2 : Bytes)
    (h1 : s.encryptBucketEntry E u p f1 m1 = .ok c1) (h2 : s.encryptBucketEntry E u p f2 m2 = .ok c2) :
    c1.take 20 = c2.take 20 ∧
    Spec.xor ((c1.drop 20).take 1) ((c2.drop 20).take 1) = [f1 ^^^ f2] ∧
    Spec.xor (c1.drop 25) (c2.drop 25) = Spec.xor m1 m2 := by
  have hf1 := (C05_encryptBucketEntry_iff cfg s h u p f1 m1 c1).mp h1
  have hf2 := (C05_encryptBucketEntry_iff cfg s h u p f2 m2 c2).mp h2
  obtain ⟨_, _, _, hm1, _, rfl⟩ := hf1
  obtain ⟨_, _, _, hm2, _, rfl⟩ := hf2
  exact C11_two_time_pad E .hkdfSHA256 _ f1 f2 m1 m2 _ _ (C07_format E _ _ _ _ hm1)
    (C07_format E _ _ _ _ hm2)

/-- C11: two entries of any two credentials have the same first 20 bytes exactly when the key tags of the credentials are equal:
for the same credential always, for different ones only by a collision of 20 bytes of HKDF output. -/
theorem C11_tells_apart (cfg : ServerConfig) (s : Server) (h : NewServer E cfg = .ok s)
    (u p u' p' : Bytes) (f1 f2 : MetadataType) (m1 m2 c1 c2 : Bytes)
    (h1 : s.encryptBucketEntry E u p f1 m1 = .ok c1) (h2 : s.encryptBucketEntry E u' p' f2 m2 = .ok c2) :
    c1.take 20 = c2.take 20 ↔
      Spec.keyTag E.sha256 (Spec.oprf s.suite s.privateKey (Spec.oprfInput E cfg.slowHasherID u p)) =
        Spec.keyTag E.sha256 (Spec.oprf s.suite s.privateKey (Spec.oprfInput E cfg.slowHasherID u' p')) := by
  have first : ∀ (secret : Bytes) (f : MetadataType) (m : Bytes), m.length ≤ 8160 →
      (Spec.entry E.sha256 secret f m).take 20 = Spec.keyTag E.sha256 secret := by
    intro secret f m hm
    rw [← entryParts_eq E secret f m hm]
    unfold entryParts
    rw [List.take_left' (keyTag_length _ _)]
  obtain ⟨_, _, _, hm1, _, rfl⟩ := (C05_encryptBucketEntry_iff cfg s h u p f1 m1 c1).mp h1
  obtain ⟨_, _, _, hm2, _, rfl⟩ := (C05_encryptBucketEntry_iff cfg s h u' p' f2 m2 c2).mp h2
  rw [first _ _ _ hm1, first _ _ _ hm2]

/-- The default server with a toy suite produces entries. -/
example : ∃ s, NewServer Example.ext (DefaultServerConfig ⟨7⟩) = .ok s ∧
    (s.encryptBucketEntry Example.ext (ascii "user") (ascii "pass") 1 (ascii "meta")).IsOk := by
  refine ⟨_, rfl, ⟨_, (C05_encryptBucketEntry_iff (E := Example.ext) (DefaultServerConfig ⟨7⟩) _ rfl
    _ _ _ _ _).mpr ⟨by decide, by decide, by decide, by decide, ?_, rfl⟩⟩⟩
  show Spec.tweak Example.toySuite ⟨7⟩ ≠ 0
  decide +kernel

end Migp.Props
