import Verif.Lemmas.Common
/-!
# C01-C05: encodings of credentials, bucket identifiers and flags
-/
namespace Migp.Props

/-! ## C01: the credential encoding -/

/-- C01: for components of at most 65535 bytes the encoding is the documented length-prefixed
format. -/
theorem C01_format (u p : Bytes) (hu : u.length ≤ 65535) (hp : p.length ≤ 65535) :
    serializeUsernamePassword u p = .ok (Spec.credential u p) := by
  rw [serialize_ok u p (by omega) (by omega), Spec.credential, len16_be16 _ (by omega),
    len16_be16 _ (by omega)]
  simp

/-- C01: the encoding parses back to the same username and password, whatever follows it. -/
theorem C01_parse (u p rest : Bytes) (hu : u.length ≤ 65535) (hp : p.length ≤ 65535) :
    ∃ e, serializeUsernamePassword u p = .ok e ∧
      Spec.parseCredential (e ++ rest) = some (u, p, rest) := by
  refine ⟨_, C01_format u p hu hp, ?_⟩
  unfold Spec.parseCredential Spec.credential
  simp only [List.append_assoc]
  rw [parseField_append _ _ (by omega)]
  simp only [Option.bind_eq_bind, Option.bind_some]
  rw [parseField_append _ _ (by omega)]
  rfl

/-- C01: no encoding is a prefix of the encoding of a different credential (in particular different
credentials have different encodings). -/
theorem C01_prefix_free (u p u' p' e e' tail : Bytes)
    (hu : u.length ≤ 65535) (hp : p.length ≤ 65535)
    (hu' : u'.length ≤ 65535) (hp' : p'.length ≤ 65535)
    (h : serializeUsernamePassword u p = .ok e) (h' : serializeUsernamePassword u' p' = .ok e')
    (hpre : e' = e ++ tail) : u = u' ∧ p = p' ∧ tail = [] := by
  obtain ⟨x, hx, hx'⟩ := C01_parse u p tail hu hp
  obtain ⟨y, hy, hy'⟩ := C01_parse u' p' [] hu' hp'
  rw [h] at hx; rw [h'] at hy
  injection hx with hx; injection hy with hy
  subst hx; subst hy
  rw [List.append_nil, hpre, hx'] at hy'
  simp only [Option.some.injEq, Prod.mk.injEq] at hy'
  exact hy'

/-- C01: injectivity. -/
theorem C01_injective (u p u' p' : Bytes)
    (hu : u.length ≤ 65535) (hp : p.length ≤ 65535)
    (hu' : u'.length ≤ 65535) (hp' : p'.length ≤ 65535)
    (h : serializeUsernamePassword u p = serializeUsernamePassword u' p') : u = u' ∧ p = p' := by
  have := C01_prefix_free u p u' p' _ _ [] hu hp hu' hp' (C01_format u p hu hp)
    (h ▸ C01_format u p hu hp) (by simp)
  exact ⟨this.1, this.2.1⟩

/-- The unit test of common_test.go:18, and two credentials that only the length fields tell
apart. -/
example : serializeUsernamePassword [1, 2, 3] [4, 5, 6, 7] = .ok [0, 3, 1, 2, 3, 0, 4, 4, 5, 6, 7] := by
  decide
example : serializeUsernamePassword [1] [2] ≠ serializeUsernamePassword [1, 2] [] := by decide

/-! ## C02: the length limit -/

/-- C02: the encoding panics exactly when a component is longer than 65536 bytes, and never
errors. -/
theorem C02_serialize_panics_iff (u p : Bytes) :
    ((serializeUsernamePassword u p).IsPanic ↔ 65536 < u.length ∨ 65536 < p.length) ∧
    ¬ (serializeUsernamePassword u p).IsErr := by
  by_cases h : 65536 < u.length ∨ 65536 < p.length
  · rw [serialize_panic u p h]; simp [h]
  · rw [serialize_ok u p (by omega) (by omega)]; simp; omega

/-- C02: among credentials that are accepted (components up to 65536 bytes), the pairs of different
credentials with the same encoding are exactly the family with a 65534-byte string `w`:
username `00 00 w` and empty password against empty username and password `w 00 00`. -/
theorem C02_collisions_exact (u p u' p' : Bytes)
    (hu : u.length ≤ 65536) (hp : p.length ≤ 65536)
    (hu' : u'.length ≤ 65536) (hp' : p'.length ≤ 65536) :
    (serializeUsernamePassword u p = serializeUsernamePassword u' p' ∧ (u, p) ≠ (u', p')) ↔
    ∃ w : Bytes, w.length = 65534 ∧
      ((u = 0 :: 0 :: w ∧ p = [] ∧ u' = [] ∧ p' = w ++ [0, 0]) ∨
       (u' = 0 :: 0 :: w ∧ p' = [] ∧ u = [] ∧ p = w ++ [0, 0])) := by
  have z0 : be16 (UInt16.ofNat 0) = [0, 0] := by decide
  have z1 : be16 (UInt16.ofNat 65536) = [0, 0] := by decide
  -- the one-sided analysis
  have key : ∀ u p u' p' : Bytes, u.length ≤ 65536 → p'.length ≤ 65536 → u.length = 65536 →
      u' = [] → (be16 (UInt16.ofNat u.length) ++ (u ++ (be16 (UInt16.ofNat p.length) ++ p))) =
        (be16 (UInt16.ofNat u'.length) ++ (u' ++ (be16 (UInt16.ofNat p'.length) ++ p'))) →
      ∃ w : Bytes, w.length = 65534 ∧ u = 0 :: 0 :: w ∧ p = [] ∧ u' = [] ∧ p' = w ++ [0, 0] := by
    intro u p u' p' hu hp' hu1 hu'0 h
    subst hu'0
    have hlen := congrArg List.length h
    simp only [List.length_append, be16_length, List.length_nil] at hlen
    have hp0 : p = [] := List.length_eq_zero_iff.mp (by omega)
    have hpl : p'.length = 65536 := by omega
    subst hp0
    simp only [List.length_nil, hu1, hpl, z0, z1, List.nil_append, List.append_nil,
      List.append_cancel_left_eq] at h
    match u, hu1 with
    | [], h1 => simp at h1
    | [_], h1 => simp at h1
    | a :: b :: w, h1 =>
      simp only [List.cons_append, List.cons.injEq] at h
      obtain ⟨rfl, rfl, h⟩ := h
      refine ⟨w, ?_, rfl, rfl, rfl, h.symm⟩
      simpa using h1
  constructor
  · rintro ⟨h, hne⟩
    rw [serialize_ok u p hu hp, serialize_ok u' p' hu' hp'] at h
    injection h with h
    by_cases hl : u.length = u'.length
    · exfalso
      rw [hl] at h
      have h := List.append_cancel_left h
      have h2 := List.append_inj h hl
      have hlp : p.length = p'.length := by
        have := congrArg List.length h2.2; simpa using this
      rw [hlp] at h2
      exact hne (by rw [h2.1, List.append_cancel_left h2.2])
    · have hhd : be16 (UInt16.ofNat u.length) = be16 (UInt16.ofNat u'.length) :=
        (List.append_inj h rfl).1
      by_cases h1 : u.length = 65536
      · have h2 : u' = [] := by
          apply List.length_eq_zero_iff.mp
          rw [h1, z1, ← z0] at hhd
          exact (be16_inj (by omega) (by omega) hhd).symm
        obtain ⟨w, hw, h⟩ := key u p u' p' hu hp' h1 h2 h
        exact ⟨w, hw, Or.inl h⟩
      · by_cases h3 : u'.length = 65536
        · have h2 : u = [] := by
            apply List.length_eq_zero_iff.mp
            rw [h3, z1, ← z0] at hhd
            exact be16_inj (by omega) (by omega) hhd
          obtain ⟨w, hw, h⟩ := key u' p' u p hu' hp h3 h2 h.symm
          exact ⟨w, hw, Or.inr h⟩
        · exact absurd (be16_inj (by omega) (by omega) hhd) hl
  · rintro ⟨w, hw, h⟩
    have e : ∀ w : Bytes, w.length = 65534 →
        serializeUsernamePassword (0 :: 0 :: w) [] = serializeUsernamePassword [] (w ++ [0, 0]) := by
      intro w hw
      rw [serialize_ok _ _ (by simp; omega) (by simp), serialize_ok _ _ (by simp) (by simp; omega)]
      have l1 : (0 :: 0 :: w : Bytes).length = 65536 := by simp; omega
      have l2 : (w ++ [0, 0] : Bytes).length = 65536 := by simp; omega
      rw [l1, l2, List.length_nil, z0, z1]
      simp
    rcases h with ⟨rfl, rfl, rfl, rfl⟩ | ⟨rfl, rfl, rfl, rfl⟩
    · exact ⟨e w hw, by simp⟩
    · exact ⟨(e w hw).symm, by simp⟩

/-- C02: the collisions exist (injectivity at the limit is false). -/
theorem C02_injective_false_at_limit :
    ∃ u p u' p' : Bytes, (u, p) ≠ (u', p') ∧
      (serializeUsernamePassword u p).IsOk ∧
      serializeUsernamePassword u p = serializeUsernamePassword u' p' := by
  obtain ⟨w, hw⟩ : ∃ w : Bytes, w.length = 65534 := ⟨List.replicate 65534 7, List.length_replicate⟩
  have l1 : (0 :: 0 :: w : Bytes).length ≤ 65536 := by rw [List.length_cons, List.length_cons]; omega
  have l2 : (w ++ [0, 0] : Bytes).length ≤ 65536 := by rw [List.length_append, hw]; decide
  have l0 : ([] : Bytes).length ≤ 65536 := by decide
  have h := (C02_collisions_exact (0 :: 0 :: w) [] [] (w ++ [0, 0]) l1 l0 l0 l2).mpr
    ⟨w, hw, Or.inl ⟨rfl, rfl, rfl, rfl⟩⟩
  refine ⟨_, _, _, _, h.2, ?_, h.1⟩
  rw [serialize_ok _ _ l1 l0]
  exact ⟨_, rfl⟩

/-! ## C03: bucket identifiers (the statement for `BucketID` itself is in `Props.Config`) -/

/-- C03: for a bit size in 0..32 the bucket ID is the number formed by that many leading bits of the
hash, and is below `2^bits`. -/
theorem C03_top_bits (hash : Bytes) (hh : 4 ≤ hash.length) (bits : Int) (h0 : 0 ≤ bits)
    (h32 : bits ≤ 32) :
    ∃ id, bucketHashToID hash bits = .ok id ∧
      id.toNat = Spec.natOfBits ((Spec.bitsOf hash).take bits.toNat) ∧
      id.toNat < 2 ^ bits.toNat := by
  obtain ⟨k, rfl⟩ := Int.eq_ofNat_of_zero_le h0
  obtain ⟨a, b, c, d, rest, rfl⟩ : ∃ a b c d rest, hash = a :: b :: c :: d :: rest := by
    match hash, hh with
    | a :: b :: c :: d :: rest, _ => exact ⟨a, b, c, d, rest, rfl⟩
  obtain ⟨id, h1, h2⟩ := bucketHashToID_ok a b c d rest k (by omega)
  refine ⟨id, h1, h2, ?_⟩
  rw [h2, Int.toNat_natCast]
  refine Nat.lt_of_lt_of_le (natOfBits_lt _) (Nat.pow_le_pow_right (by omega) ?_)
  rw [List.length_take]
  omega

/-- C03: it panics exactly for bit sizes outside 0..32. -/
theorem C03_panics_iff (hash : Bytes) (hh : 4 ≤ hash.length) (bits : Int) :
    ((bucketHashToID hash bits).IsPanic ↔ bits < 0 ∨ 32 < bits) ∧
    ¬ (bucketHashToID hash bits).IsErr := by
  by_cases h : bits < 0 ∨ 32 < bits
  · obtain ⟨p, hp⟩ := bucketHashToID_panic hash hh bits h
    rw [hp]; simp [h]
  · obtain ⟨id, h1, _⟩ := C03_top_bits hash hh bits (by omega) (by omega)
    rw [h1]; simp; omega

/-- C03: a smaller bit size gives a prefix of a larger one. -/
theorem C03_prefix (hash : Bytes) (hh : 4 ≤ hash.length) (small large : Int) (h0 : 0 ≤ small)
    (hle : small ≤ large) (h32 : large ≤ 32) :
    ∃ a b, bucketHashToID hash small = .ok a ∧ bucketHashToID hash large = .ok b ∧
      a.toNat = b.toNat / 2 ^ (large - small).toNat := by
  obtain ⟨a, ha, ha', _⟩ := C03_top_bits hash hh small h0 (by omega)
  obtain ⟨b, hb, hb', _⟩ := C03_top_bits hash hh large (by omega) h32
  refine ⟨a, b, ha, hb, ?_⟩
  rw [ha', hb']
  have h := natOfBits_take ((Spec.bitsOf hash).take large.toNat) small.toNat
  rw [List.take_take, Nat.min_eq_left (by omega)] at h
  rw [h]
  congr 2
  have hl : 32 ≤ (Spec.bitsOf hash).length := by
    have : (Spec.bitsOf hash).length = 8 * hash.length := by
      clear hh ha ha' hb hb' h
      induction hash with
      | nil => rfl
      | cons x xs ih =>
        simp only [Spec.bitsOf, List.flatMap_cons, List.length_append, bitsOfByte_length,
          List.length_cons] at ih ⊢
        omega
    omega
  rw [List.length_take]
  omega

/-- The points of common_test.go:36-39. -/
example : bucketHashToID [1, 2, 3, 4, 5, 6] 15 = .ok 0x81 ∧ bucketHashToID [1, 2, 3, 4, 5, 6] 0 = .ok 0 ∧
    bucketHashToID [1, 2, 3, 4, 5, 6] 32 = .ok 0x1020304 := by decide

/-! ## C04: hex form -/

/-- C04: 8 lower-case hex digits which, read as a number, are the ID, and which decode to its
big-endian bytes. -/
theorem C04_canonical (id : UInt32) :
    (BucketIDToHex id).length = 8 ∧ (∀ c ∈ BucketIDToHex id, Spec.IsLowerHex c) ∧
    Spec.natOfHex (BucketIDToHex id) = id.toNat ∧
    (∃ a b c d, hexDecode (BucketIDToHex id) = some [a, b, c, d] ∧
      ((a.toNat * 256 + b.toNat) * 256 + c.toNat) * 256 + d.toNat = id.toNat) := by
  have hid := id.toNat_lt
  refine ⟨?_, hexEncode_lower _, ?_, ?_⟩
  · simp [BucketIDToHex, hexEncode_length]
  · simp only [BucketIDToHex, be32, hexEncode, Spec.natOfHex, List.foldl_cons, List.foldl_nil,
      UInt8.toNat_ofNat']
    simp only [hexValue_hexDigit _ (show id.toNat / 16777216 % 2 ^ 8 / 16 < 16 by omega),
      hexValue_hexDigit _ (show id.toNat / 16777216 % 2 ^ 8 % 16 < 16 by omega),
      hexValue_hexDigit _ (show id.toNat / 65536 % 2 ^ 8 / 16 < 16 by omega),
      hexValue_hexDigit _ (show id.toNat / 65536 % 2 ^ 8 % 16 < 16 by omega),
      hexValue_hexDigit _ (show id.toNat / 256 % 2 ^ 8 / 16 < 16 by omega),
      hexValue_hexDigit _ (show id.toNat / 256 % 2 ^ 8 % 16 < 16 by omega),
      hexValue_hexDigit _ (show id.toNat % 2 ^ 8 / 16 < 16 by omega),
      hexValue_hexDigit _ (show id.toNat % 2 ^ 8 % 16 < 16 by omega)]
    omega
  · refine ⟨_, _, _, _, hexDecode_hexEncode (be32 id), ?_⟩
    simp only [UInt8.toNat_ofNat']
    omega

/-- C04: different IDs have different hex forms. -/
theorem C04_injective (a b : UInt32) (h : BucketIDToHex a = BucketIDToHex b) : a = b :=
  BucketIDToHex_inj h

example : BucketIDToHex 0x01020304 = ascii "01020304" ∧ BucketIDToHex 0xff = ascii "000000ff" ∧
    BucketIDToHex 0xffffffff = ascii "ffffffff" := by decide

/-! ## C05: flags (the statement for `EncryptBucketEntry` is in `Props.Config`) -/

/-- C05: which flags are valid, and what they become. -/
theorem C05_flags (mt : MetadataType) :
    (MetadataType.valid mt = true ↔ mt.toNat ≤ 3) ∧
    (MetadataType.toBreachStatus mt ≠ NotInBreach ↔ 1 ≤ mt.toNat ∧ mt.toNat ≤ 3) ∧
    (mt.toNat ≤ 3 → MetadataType.toBreachStatus mt = mt) ∧
    (MetadataType.toBreachStatus mt = InBreach ↔ mt = MetadataBreachedPassword) ∧
    (MetadataType.toBreachStatus mt = SimilarInBreach ↔ mt = MetadataSimilarPassword) ∧
    (MetadataType.toBreachStatus mt = UsernameInBreach ↔ mt = MetadataBreachedUsername) := by
  have key : ∀ n : Fin 256, let mt : UInt8 := UInt8.ofNat n.val
      (MetadataType.valid mt = true ↔ mt.toNat ≤ 3) ∧
      (MetadataType.toBreachStatus mt ≠ NotInBreach ↔ 1 ≤ mt.toNat ∧ mt.toNat ≤ 3) ∧
      (mt.toNat ≤ 3 → MetadataType.toBreachStatus mt = mt) ∧
      (MetadataType.toBreachStatus mt = InBreach ↔ mt = MetadataBreachedPassword) ∧
      (MetadataType.toBreachStatus mt = SimilarInBreach ↔ mt = MetadataSimilarPassword) ∧
      (MetadataType.toBreachStatus mt = UsernameInBreach ↔ mt = MetadataBreachedUsername) := by
    decide +kernel
  have := key ⟨mt.toNat, mt.toNat_lt⟩
  simpa using this

/-- C05: the names shown to users tell the four statuses apart. -/
theorem C05_status_names (a b : BreachStatus) (ha : a.toNat ≤ 3) (hb : b.toNat ≤ 3)
    (h : BreachStatus.toString a = BreachStatus.toString b) : a = b := by
  have key : ∀ n m : Fin 4, BreachStatus.toString (UInt8.ofNat n.val) =
      BreachStatus.toString (UInt8.ofNat m.val) → UInt8.ofNat n.val = UInt8.ofNat m.val := by
    decide +kernel
  have := key ⟨a.toNat, by omega⟩ ⟨b.toNat, by omega⟩
  simp only [UInt8.ofNat_toNat] at this
  exact this h

end Migp.Props
