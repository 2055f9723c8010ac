import Verif.Lemmas.Encryptor
import Verif.Model.Server
import Verif.Spec.Protocol
/-! # Lemmas on hashers, keys, requests and `HandleRequest` -/
namespace Migp

theorem len16w_be16 (n : Nat) : Spec.len16w n = be16 (UInt16.ofNat n) := by
  rw [Spec.len16w, len16_be16 _ (Nat.mod_lt _ (by decide))]
  congr 1
  apply UInt16.toNat_inj.mp
  simp

theorem serialize_eq (u p : Bytes) (hu : u.length ≤ 65536) (hp : p.length ≤ 65536) :
    serializeUsernamePassword u p = .ok (Spec.credentialW u p) := by
  rw [serialize_ok u p hu hp, Spec.credentialW, len16w_be16, len16w_be16]
  simp

theorem salt_length : BucketHashSalt.length = 11 := by decide

theorem bucketHash_ok (E : Ext) (u : Bytes) (hu : u.length ≤ 65536) :
    NewSHA256BucketHasher.hash E u = .ok (E.sha256 (Spec.bucketPreimage u)) := by
  unfold BucketHasher.hash NewSHA256BucketHasher
  dsimp only
  rw [if_neg (by rw [salt_length]; omega)]
  have hm : makeBytes (2 + BucketHashSalt.length + 2 + u.length) =
      makeBytes 2 ++ (makeBytes BucketHashSalt.length ++ (makeBytes 2 ++ makeBytes u.length)) := by
    rw [← makeBytes_add, ← makeBytes_add, ← makeBytes_add]; congr 1; omega
  rw [hm]
  have h1 := putUint16At_mid [] (makeBytes 2) (makeBytes BucketHashSalt.length ++ (makeBytes 2 ++ makeBytes u.length))
    0 (UInt16.ofNat BucketHashSalt.length) rfl (by simp)
  simp only [List.nil_append] at h1
  rw [h1]
  simp only [Res.ok_bind]
  rw [copyAt_mid _ _ _ _ _ (by simp) (by simp)]
  simp only [Res.ok_bind]
  rw [← List.append_assoc, putUint16At_mid _ _ _ _ _ (by simp) (by simp)]
  simp only [Res.ok_bind]
  rw [← List.append_assoc, copyAt_end _ _ _ _ (by simp; omega) (by simp)]
  simp only [Res.ok_bind, Spec.bucketPreimage, len16w_be16, salt_length]
  congr 2

theorem bucketHash_panic (E : Ext) (u : Bytes) (hu : 65536 < u.length) :
    NewSHA256BucketHasher.hash E u = .panic .hasherInput := by
  unfold BucketHasher.hash NewSHA256BucketHasher
  dsimp only
  rw [if_pos (Or.inr hu)]

theorem newBucketHasher_ok {id : UInt16} {h : BucketHasher} (e : NewBucketHasher id = .ok h) :
    id = 1 ∧ h = NewSHA256BucketHasher := by
  unfold NewBucketHasher at e
  split at e
  · injection e with e; exact ⟨by assumption, e.symm⟩
  · cases e

theorem newBucketEncryptor_ok {id : UInt16} {h : BucketEncryptor} (e : NewBucketEncryptor id = .ok h) :
    id = 1 ∧ h = NewHKDFSHA256BucketEncryptor := by
  unfold NewBucketEncryptor at e
  split at e
  · injection e with e; exact ⟨by assumption, e.symm⟩
  · cases e

theorem newSlowHasher_ok {id : UInt16} {h : SlowHasher} (e : NewSlowHasher id = .ok h) :
    (id = 0 ∧ h = .null) ∨ (id = 1 ∧ h = NewScryptSlowHasher) := by
  unfold NewSlowHasher at e
  split at e
  · injection e with e; exact Or.inl ⟨by assumption, e.symm⟩
  · split at e
    · injection e with e; exact Or.inr ⟨by assumption, e.symm⟩
    · cases e

theorem slowHash_ok (E : Ext) {id : UInt16} {h : SlowHasher} (e : NewSlowHasher id = .ok h) (x : Bytes) :
    h.hash E x = .ok (Spec.slowHash E id x) := by
  rcases newSlowHasher_ok e with ⟨rfl, rfl⟩ | ⟨rfl, rfl⟩
  · rfl
  · unfold SlowHasher.hash NewScryptSlowHasher scryptKey
    dsimp only
    rw [if_neg (by decide), if_neg (by decide)]
    simp only [Spec.slowHash]
    rw [if_neg (by decide)]
    rfl

/-- A well-formed client for a configuration: what `NewClient` returns. -/
theorem newClient_ok {E : Ext} {cfg : Config} {c : Client} (h : NewClient E cfg = .ok c) :
    ∃ slow S, cfg.bucketHasherID = 1 ∧ cfg.bucketEncryptorID = 1 ∧
      NewSlowHasher cfg.slowHasherID = .ok slow ∧ E.suites cfg.oprfSuite = some S ∧
      c = { version := cfg.version, bucketIDBitSize := cfg.bucketIDBitSize,
            bucketHasher := NewSHA256BucketHasher, bucketEncryptor := .hkdfSHA256, slowHasher := slow,
            suite := S, oprfSuite := cfg.oprfSuite } := by
  unfold NewClient at h
  obtain ⟨bh, h1, h⟩ := Res.bind_eq_ok.mp h
  obtain ⟨slow, h2, h⟩ := Res.bind_eq_ok.mp h
  obtain ⟨be, h3, h⟩ := Res.bind_eq_ok.mp h
  obtain ⟨hid, rfl⟩ := newBucketHasher_ok h1
  obtain ⟨hid', rfl⟩ := newBucketEncryptor_ok h3
  split at h
  · cases h
  · rename_i S hS
    injection h with h
    exact ⟨slow, S, hid, hid', h2, hS, h.symm⟩

theorem newServer_ok {E : Ext} {cfg : ServerConfig} {s : Server} (h : NewServer E cfg = .ok s) :
    ∃ slow S, cfg.bucketHasherID = 1 ∧ cfg.bucketEncryptorID = 1 ∧
      NewSlowHasher cfg.slowHasherID = .ok slow ∧ E.suites cfg.oprfSuite = some S ∧
      E.keyOK cfg.oprfSuite cfg.privateKey = true ∧
      s = { version := cfg.version, bucketIDBitSize := cfg.bucketIDBitSize,
            bucketHasher := NewSHA256BucketHasher, bucketEncryptor := .hkdfSHA256, slowHasher := slow,
            suite := S, oprfSuite := cfg.oprfSuite, privateKey := cfg.privateKey } := by
  unfold NewServer at h
  obtain ⟨bh, h1, h⟩ := Res.bind_eq_ok.mp h
  obtain ⟨slow, h2, h⟩ := Res.bind_eq_ok.mp h
  obtain ⟨be, h3, h⟩ := Res.bind_eq_ok.mp h
  obtain ⟨hid, rfl⟩ := newBucketHasher_ok h1
  obtain ⟨hid', rfl⟩ := newBucketEncryptor_ok h3
  split at h
  · cases h
  · rename_i S hS
    split at h
    · rename_i hk
      injection h with h
      exact ⟨slow, S, hid, hid', h2, hS, hk, h.symm⟩
    · cases h

/-! ## Keys -/

theorem fullEvaluate_ok (S : Suite) (key : PrivateKey) (x : Bytes) (h : Spec.tweak S key ≠ 0) :
    S.fullEvaluate key x OprfInfo = .ok (Spec.oprf S key x) := by
  unfold Suite.fullEvaluate Suite.secretFromInfo
  dsimp only
  rw [if_neg (by exact h)]
  rfl

theorem fullEvaluate_err (S : Suite) (key : PrivateKey) (x : Bytes) (h : Spec.tweak S key = 0) :
    S.fullEvaluate key x OprfInfo = .err .oprfInverseZero := by
  unfold Suite.fullEvaluate Suite.secretFromInfo
  dsimp only
  rw [if_pos (by exact h)]
  rfl

theorem evaluate_ok (S : Suite) (key : PrivateKey) (b : Bytes) (p : ZMod S.q)
    (h : Spec.tweak S key ≠ 0) (hb : S.de b = some p) :
    S.evaluate key b OprfInfo = .ok (S.ser ((Spec.tweak S key)⁻¹ * p)) := by
  unfold Suite.evaluate Suite.secretFromInfo
  dsimp only
  rw [if_neg (by exact h)]
  simp only [Res.ok_bind, hb]
  rfl

theorem evaluate_none (S : Suite) (key : PrivateKey) (b : Bytes)
    (h : Spec.tweak S key ≠ 0) (hb : S.de b = none) :
    S.evaluate key b OprfInfo = .err .oprfElement := by
  unfold Suite.evaluate Suite.secretFromInfo
  dsimp only
  rw [if_neg (by exact h)]
  simp only [Res.ok_bind, hb]

theorem evaluate_zero (S : Suite) (key : PrivateKey) (b : Bytes) (h : Spec.tweak S key = 0) :
    S.evaluate key b OprfInfo = .err .oprfInverseZero := by
  unfold Suite.evaluate Suite.secretFromInfo
  dsimp only
  rw [if_pos (by exact h)]
  rfl

/-- Unblinding cancels the blind. -/
theorem clientFinalize_ok (S : Suite) (key : PrivateKey) (x : Bytes) (r : ZMod S.q) (hr : r ≠ 0) :
    S.clientFinalize x r (S.ser ((Spec.tweak S key)⁻¹ * (r * S.hashToElement x))) OprfInfo =
      .ok (Spec.oprf S key x) := by
  unfold Suite.clientFinalize
  rw [S.de_ser]
  dsimp only
  rw [Spec.oprf]
  congr 3
  rw [mul_left_comm, ← mul_assoc r⁻¹, inv_mul_cancel₀ hr, one_mul]

section server
variable {E : Ext} {cfg : ServerConfig} {s : Server}

theorem deriveKey_ok (hs : NewServer E cfg = .ok s) (u p : Bytes) (hu : u.length ≤ 65536)
    (hp : p.length ≤ 65536) (ht : Spec.tweak s.suite s.privateKey ≠ 0) :
    s.deriveBucketEntryKey E u p =
      .ok (Spec.oprf s.suite s.privateKey (Spec.oprfInput E cfg.slowHasherID u p)) := by
  obtain ⟨slow, S, _, _, hslow, hS, hk, rfl⟩ := newServer_ok hs
  unfold Server.deriveBucketEntryKey
  rw [serialize_eq u p hu hp]
  simp only [Res.ok_bind]
  rw [slowHash_ok E hslow]
  simp only [Res.ok_bind]
  exact fullEvaluate_ok S _ _ ht

theorem deriveKey_zero (hs : NewServer E cfg = .ok s) (u p : Bytes) (hu : u.length ≤ 65536)
    (hp : p.length ≤ 65536) (ht : Spec.tweak s.suite s.privateKey = 0) :
    s.deriveBucketEntryKey E u p = .err .oprfInverseZero := by
  obtain ⟨slow, S, _, _, hslow, hS, hk, rfl⟩ := newServer_ok hs
  unfold Server.deriveBucketEntryKey
  rw [serialize_eq u p hu hp]
  simp only [Res.ok_bind]
  rw [slowHash_ok E hslow]
  simp only [Res.ok_bind]
  exact fullEvaluate_err S _ _ ht

theorem deriveKey_panic (s : Server) (E : Ext) (u p : Bytes)
    (h : 65536 < u.length ∨ 65536 < p.length) :
    s.deriveBucketEntryKey E u p = .panic .lengthOverflow := by
  unfold Server.deriveBucketEntryKey
  rw [serialize_panic u p h]
  rfl

/-- Bucket numbers for a bit size in range. -/
theorem bucketID_ok (E : Ext) (u : Bytes) (hu : u.length ≤ 65536) (bits : Int) (h0 : 0 ≤ bits)
    (h32 : bits ≤ 32) :
    ∃ id, (do let h ← NewSHA256BucketHasher.hash E u; bucketHashToID h bits) = .ok id ∧
      id.toNat = Spec.bucketNumber E bits.toNat u := by
  rw [bucketHash_ok E u hu]
  simp only [Res.ok_bind]
  obtain ⟨k, rfl⟩ := Int.eq_ofNat_of_zero_le h0
  have hl := E.sha256_len (Spec.bucketPreimage u)
  unfold Spec.bucketNumber
  match hh : E.sha256 (Spec.bucketPreimage u), hl with
  | a :: b :: c :: d :: rest, _ =>
    obtain ⟨id, h1, h2⟩ := bucketHashToID_ok a b c d rest k (by omega)
    exact ⟨id, h1, by simpa using h2⟩

theorem bucketID_panic (E : Ext) (u : Bytes) (bits : Int)
    (h : 65536 < u.length ∨ bits < 0 ∨ 32 < bits) :
    (do let h ← NewSHA256BucketHasher.hash E u; bucketHashToID h bits : Res UInt32).IsPanic := by
  by_cases hu : 65536 < u.length
  · rw [bucketHash_panic E u hu]; simp
  · rw [bucketHash_ok E u (by omega)]
    simp only [Res.ok_bind]
    exact bucketHashToID_panic _ (by rw [E.sha256_len]; decide) bits (by omega)

theorem server_bucketID_eq (hs : NewServer E cfg = .ok s) (u : Bytes) :
    s.bucketID E u =
      (do let h ← NewSHA256BucketHasher.hash E u; bucketHashToID h cfg.bucketIDBitSize) := by
  obtain ⟨slow, S, _, _, _, _, _, rfl⟩ := newServer_ok hs
  rfl

theorem client_bucketID_eq {cfg : Config} {c : Client} (hc : NewClient E cfg = .ok c) (u : Bytes) :
    c.bucketID E u =
      (do let h ← NewSHA256BucketHasher.hash E u; bucketHashToID h cfg.bucketIDBitSize) := by
  obtain ⟨slow, S, _, _, _, _, rfl⟩ := newClient_ok hc
  rfl

/-- The key of a credential's entries, for a server of configuration `cfg`. -/
def entryKey (E : Ext) (cfg : ServerConfig) (s : Server) (u p : Bytes) : Bytes :=
  Spec.oprf s.suite s.privateKey (Spec.oprfInput E cfg.slowHasherID u p)

theorem valid_iff (flag : MetadataType) : MetadataType.valid flag = true ↔ flag.toNat ≤ 3 := by
  have key : ∀ n : Fin 256, (MetadataType.valid (UInt8.ofNat n.val) = true ↔
      (UInt8.ofNat n.val).toNat ≤ 3) := by decide +kernel
  have := key ⟨flag.toNat, flag.toNat_lt⟩
  simpa using this

theorem encryptBucketEntry_invalid (s : Server) (u p : Bytes) (flag : MetadataType) (m : Bytes)
    (hf : ¬ flag.toNat ≤ 3) :
    s.encryptBucketEntry E u p flag m = .err (.invalidFlag (runeString flag)) := by
  unfold Server.encryptBucketEntry
  rw [if_pos]
  have := mt (valid_iff flag).mp hf
  simpa using this

theorem encryptBucketEntry_valid (s : Server) (u p : Bytes) (flag : MetadataType) (m : Bytes)
    (hf : flag.toNat ≤ 3) :
    s.encryptBucketEntry E u p flag m =
      (s.deriveBucketEntryKey E u p >>= fun key => s.bucketEncryptor.encrypt E key flag m) := by
  unfold Server.encryptBucketEntry
  rw [if_neg]
  have := (valid_iff flag).mpr hf
  simpa using this

theorem encryptBucketEntry_ok (hs : NewServer E cfg = .ok s) (u p : Bytes) (flag : MetadataType)
    (m : Bytes) (hf : flag.toNat ≤ 3) (hu : u.length ≤ 65536) (hp : p.length ≤ 65536)
    (ht : Spec.tweak s.suite s.privateKey ≠ 0) (hm : m.length ≤ 8160) :
    s.encryptBucketEntry E u p flag m = .ok (entryParts E (entryKey E cfg s u p) flag m) := by
  rw [encryptBucketEntry_valid s u p flag m hf, deriveKey_ok hs u p hu hp ht]
  simp only [Res.ok_bind]
  exact encrypt_ok E _ _ _ _ hm

theorem encryptBucketEntry_panic (s : Server) (u p : Bytes) (flag : MetadataType)
    (m : Bytes) (hf : flag.toNat ≤ 3) (h : 65536 < u.length ∨ 65536 < p.length) :
    s.encryptBucketEntry E u p flag m = .panic .lengthOverflow := by
  rw [encryptBucketEntry_valid s u p flag m hf, deriveKey_panic s E u p h]
  rfl

theorem encryptBucketEntry_zero (hs : NewServer E cfg = .ok s) (u p : Bytes) (flag : MetadataType)
    (m : Bytes) (hf : flag.toNat ≤ 3) (hu : u.length ≤ 65536) (hp : p.length ≤ 65536)
    (ht : Spec.tweak s.suite s.privateKey = 0) :
    s.encryptBucketEntry E u p flag m = .err .oprfInverseZero := by
  rw [encryptBucketEntry_valid s u p flag m hf, deriveKey_zero hs u p hu hp ht]
  rfl

theorem encryptBucketEntry_long (hs : NewServer E cfg = .ok s) (u p : Bytes) (flag : MetadataType)
    (m : Bytes) (hf : flag.toNat ≤ 3) (hu : u.length ≤ 65536) (hp : p.length ≤ 65536)
    (ht : Spec.tweak s.suite s.privateKey ≠ 0) (hm : 8160 < m.length) :
    s.encryptBucketEntry E u p flag m = .err .hkdfEntropy := by
  rw [encryptBucketEntry_valid s u p flag m hf, deriveKey_ok hs u p hu hp ht]
  simp only [Res.ok_bind]
  exact encrypt_err E _ _ _ _ hm

end server

/-! ## Hex strings -/

theorem hexDecode_isSome_iff : ∀ s : GoString, (hexDecode s).isSome ↔ Spec.IsHexString s
  | [] => by simp [hexDecode, Spec.IsHexString]
  | [_] => by simp [hexDecode, Spec.IsHexString]
  | a :: b :: rest => by
    have ih := hexDecode_isSome_iff rest
    have ha := fromHexChar_isSome a
    have hb := fromHexChar_isSome b
    have e : Spec.IsHexString (a :: b :: rest) ↔
        Spec.IsHex a ∧ Spec.IsHex b ∧ Spec.IsHexString rest := by
      simp only [Spec.IsHexString, List.length_cons, List.mem_cons, forall_eq_or_imp]
      constructor
      · rintro ⟨h1, h2, h3, h4⟩; exact ⟨h2, h3, by omega, h4⟩
      · rintro ⟨h1, h2, h3, h4⟩; exact ⟨by omega, h1, h2, h4⟩
    rw [e, ← ha, ← hb, ← ih, hexDecode]
    cases fromHexChar a <;> cases fromHexChar b <;> cases hexDecode rest <;> simp

end Migp
