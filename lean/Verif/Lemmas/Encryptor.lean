import Verif.Lemmas.Common
import Verif.Model.Encryptor
import Verif.Spec.Hkdf
import Verif.Go.Hkdf
/-! # Lemmas on HKDF and `encryptor.go` -/
namespace Migp

theorem hmac_length (E : Ext) (k m : Bytes) : (hmac E.sha256 k m).length = 32 := by
  simp only [hmac, E.sha256_len]

/-- A key padded with zeros to a block. -/
theorem padded_key (k : Bytes) (h : k.length ≤ 64) :
    k ++ List.replicate (64 - k.length) 0 = (List.range 64).map (fun i => k.getD i 0) := by
  apply List.ext_getElem
  · simp; omega
  · intro i h1 h2
    simp only [List.getElem_map, List.getElem_range, List.getElem_append, List.getElem_replicate, List.getD_eq_getElem?_getD]
    split
    · rename_i hi
      rw [List.getElem?_eq_getElem hi, Option.getD_some]
    · rename_i hi
      rw [List.getElem?_eq_none (by omega), Option.getD_none]

theorem zip_const (k : Bytes) (b : UInt8) : k.map (· ^^^ b) = List.zipWith (· ^^^ ·) k (List.replicate k.length b) := by
  induction k with
  | nil => rfl
  | cons x k ih => rw [List.map_cons, ih, List.length_cons, List.replicate_succ, List.zipWith_cons_cons]

/-- The HMAC of the Go library is that of RFC 2104. -/
theorem hmac_eq (E : Ext) (k m : Bytes) : hmac E.sha256 k m = Spec.hmac E.sha256 k m := by
  have hb : (if k.length > sha256BlockSize then E.sha256 k else k) ++
      List.replicate (sha256BlockSize - (if k.length > sha256BlockSize then E.sha256 k else k).length) 0 =
        Spec.hmacBlock E.sha256 k := by
    unfold Spec.hmacBlock
    by_cases h : k.length ≤ 64
    · rw [if_neg (by unfold sha256BlockSize; omega), if_pos h]
      exact padded_key k h
    · rw [if_pos (by unfold sha256BlockSize; omega), if_neg h]
      exact padded_key _ (by rw [E.sha256_len]; omega)
  have hl : (Spec.hmacBlock E.sha256 k).length = 64 := by
    unfold Spec.hmacBlock
    rw [List.length_map, List.length_range]
  unfold hmac Spec.hmac
  dsimp only
  rw [hb, zip_const, zip_const, hl]

theorem hkdfFill_length (E : Ext) (prk info prev : Bytes) (c : UInt8) (n : Nat) :
    (hkdfFill E.sha256 prk info prev c n).length = n := by
  induction n using Nat.strongRecOn generalizing prev c with
  | _ n ih =>
    unfold hkdfFill
    split
    · simp [*]
    · rename_i h
      simp only [List.length_append, List.length_take, hmac_length]
      rw [ih _ (by simp only [sha256Size]; omega)]
      simp only [sha256Size]
      omega

theorem hkdfT_length (E : Ext) (prk info : Bytes) (i : Nat) :
    (Spec.hkdfT E.sha256 prk info (i + 1)).length = 32 := by
  simp only [Spec.hkdfT, ← hmac_eq, hmac_length]

/-- The filling loop from block `i+1` on yields the first `n` bytes of the RFC blocks from `i+1`
on, as long as `m` blocks are enough and the counter does not wrap. -/
theorem hkdfFill_eq (E : Ext) (prk info : Bytes) (m i n : Nat) (hn : n ≤ 32 * m)
    (hi : i + m ≤ 255) :
    hkdfFill E.sha256 prk info (Spec.hkdfT E.sha256 prk info i) (UInt8.ofNat (i + 1)) n =
      (((List.range m).map (fun j => Spec.hkdfT E.sha256 prk info (i + j + 1))).flatten).take n := by
  induction m generalizing i n with
  | zero =>
    have : n = 0 := by omega
    subst this
    unfold hkdfFill; simp
  | succ m ih =>
    unfold hkdfFill
    split
    · simp [*]
    · rename_i h
      have hT : hmac E.sha256 prk (Spec.hkdfT E.sha256 prk info i ++ info ++ [UInt8.ofNat (i + 1)]) =
          Spec.hkdfT E.sha256 prk info (i + 1) := hmac_eq E _ _
      have hc : UInt8.ofNat (i + 1) + 1 = UInt8.ofNat (i + 1 + 1) := by
        apply UInt8.toNat_inj.mp
        simp only [UInt8.toNat_add, UInt8.toNat_ofNat', UInt8.toNat_one]
        omega
      simp only [hT, hc]
      rw [ih (i + 1) (n - sha256Size) (by simp only [sha256Size]; omega) (by omega)]
      rw [List.range_succ_eq_map, List.map_cons, List.map_map, List.flatten_cons, List.take_append]
      have hl : (Spec.hkdfT E.sha256 prk info (i + 0 + 1)).length = 32 := hkdfT_length E prk info _
      rw [hl]
      congr 2
      congr 2
      funext j
      simp only [Function.comp]
      congr 1
      omega

theorem hkdfNewRead_ok (sha : Bytes → Bytes) (secret salt : Bytes) (n : Nat) (h : n ≤ 8160) :
    hkdfNewRead sha secret salt n =
      .ok (n, hkdfFill sha (hkdfExtract sha secret salt) [] [] 1 n) := by
  unfold hkdfNewRead
  dsimp only
  have : 0 + (255 - 1 + 1 : UInt8).toNat * sha256Size = 8160 := by decide
  rw [this, if_neg (by omega)]

theorem hkdfNewRead_err (sha : Bytes → Bytes) (secret salt : Bytes) (n : Nat) (h : 8160 < n) :
    hkdfNewRead sha secret salt n = .err .hkdfEntropy := by
  unfold hkdfNewRead
  dsimp only
  have : 0 + (255 - 1 + 1 : UInt8).toNat * sha256Size = 8160 := by decide
  rw [this, if_pos (by omega)]

theorem hkdf_eq_fill (E : Ext) (secret salt : Bytes) (n : Nat) (h : n ≤ 8160) :
    Spec.hkdf E.sha256 secret salt [] n =
      hkdfFill E.sha256 (hkdfExtract E.sha256 secret salt) [] [] 1 n := by
  have h1 := hkdfFill_eq E (hkdfExtract E.sha256 secret salt) [] 255 0 n (by omega) (by omega)
  have h0 : Spec.hkdfT E.sha256 (hkdfExtract E.sha256 secret salt) [] 0 = [] := rfl
  rw [h0] at h1
  have h2 : (UInt8.ofNat (0 + 1)) = 1 := rfl
  rw [h2] at h1
  rw [h1, Spec.hkdf]
  simp only [hkdfExtract, Nat.zero_add, hmac_eq]

/-- The pad of `n ≤ 8160` bytes is RFC 5869 HKDF output. -/
theorem derivePad_ok (E : Ext) (secret salt : Bytes) (n : Nat) (h : n ≤ 8160) :
    derivePad E secret salt n = .ok (Spec.hkdf E.sha256 secret salt [] n) := by
  unfold derivePad
  rw [hkdfNewRead_ok _ _ _ _ h, hkdf_eq_fill E secret salt n h]
  simp

theorem derivePad_err (E : Ext) (secret salt : Bytes) (n : Nat) (h : 8160 < n) :
    derivePad E secret salt n = .err .hkdfEntropy := by
  unfold derivePad
  rw [hkdfNewRead_err _ _ _ _ h]
  simp

theorem hkdf_length (E : Ext) (secret salt : Bytes) (n : Nat) (h : n ≤ 8160) :
    (Spec.hkdf E.sha256 secret salt [] n).length = n := by
  rw [hkdf_eq_fill E secret salt n h]
  exact hkdfFill_length E _ _ _ _ n

theorem hkdf_take (sha : Bytes → Bytes) (secret salt info : Bytes) (m n : Nat) (h : m ≤ n) :
    (Spec.hkdf sha secret salt info n).take m = Spec.hkdf sha secret salt info m := by
  unfold Spec.hkdf
  rw [List.take_take, Nat.min_eq_left h]

/-! ## XOR -/

theorem xorBytes_ok (a b : Bytes) (h : a.length = b.length) : xorBytes a b = .ok (Spec.xor a b) := by
  unfold xorBytes; rw [if_neg (by simp [h])]; rfl

theorem xor_length (a b : Bytes) : (Spec.xor a b).length = min a.length b.length := by
  simp [Spec.xor]

theorem xor_append (a b c d : Bytes) (h : a.length = c.length) :
    Spec.xor (a ++ b) (c ++ d) = Spec.xor a c ++ Spec.xor b d := by
  simp only [Spec.xor]
  exact List.zipWith_append h

theorem xor_zero (b : Bytes) (n : Nat) (h : n = b.length) : Spec.xor (List.replicate n 0) b = b := by
  subst h
  induction b with
  | nil => rfl
  | cons x xs ih =>
    simp only [List.length_cons, List.replicate_succ, Spec.xor, List.zipWith_cons_cons]
    rw [← Spec.xor, ih]
    simp

theorem xor_xor (a b : Bytes) (h : a.length = b.length) : Spec.xor (Spec.xor a b) b = a := by
  induction a generalizing b with
  | nil => rfl
  | cons x xs ih =>
    cases b with
    | nil => simp at h
    | cons y ys =>
      have := ih ys (by simpa using h)
      simp only [Spec.xor, List.zipWith_cons_cons] at this ⊢
      rw [this, UInt8.xor_assoc, UInt8.xor_self, UInt8.xor_zero]

theorem xor_comm (a b : Bytes) : Spec.xor a b = Spec.xor b a := by
  simp only [Spec.xor]
  rw [List.zipWith_comm]
  congr 1
  funext x y
  exact UInt8.xor_comm _ _

theorem xor_assoc (a b c : Bytes) : Spec.xor (Spec.xor a b) c = Spec.xor a (Spec.xor b c) := by
  induction a generalizing b c with
  | nil => simp [Spec.xor]
  | cons x xs ih =>
    cases b with
    | nil => simp [Spec.xor]
    | cons y ys =>
      cases c with
      | nil => simp [Spec.xor]
      | cons z zs =>
        have := ih ys zs
        simp only [Spec.xor, List.zipWith_cons_cons] at this ⊢
        rw [this, UInt8.xor_assoc]

/-! ## Header pad split into key tag and flag pad -/

/-- The byte that masks the flag. -/
def flagPad (E : Ext) (secret : Bytes) : UInt8 :=
  ((Spec.hkdf E.sha256 secret DerivePadHeaderSalt [] 21)[20]?).getD 0

theorem headerPad_split (E : Ext) (secret : Bytes) :
    Spec.hkdf E.sha256 secret DerivePadHeaderSalt [] 21 =
      Spec.keyTag E.sha256 secret ++ [flagPad E secret] := by
  have hl := hkdf_length E secret DerivePadHeaderSalt 21 (by omega)
  have ht := hkdf_take E.sha256 secret DerivePadHeaderSalt [] 20 21 (by omega)
  have hk : Spec.keyTag E.sha256 secret = Spec.hkdf E.sha256 secret DerivePadHeaderSalt [] 20 := rfl
  rw [hk, ← ht]
  conv => lhs; rw [← List.take_append_drop 20 (Spec.hkdf E.sha256 secret DerivePadHeaderSalt [] 21)]
  congr 1
  rw [List.drop_eq_getElem_cons (by omega), List.drop_of_length_le (by omega)]
  congr 1
  rw [flagPad, List.getElem?_eq_getElem (by omega)]
  rfl

theorem keyTag_length (E : Ext) (secret : Bytes) : (Spec.keyTag E.sha256 secret).length = 20 :=
  hkdf_length E secret _ 20 (by omega)

/-- The body pad for a body of `n` bytes. -/
def bodyPad (E : Ext) (secret : Bytes) (n : Nat) : Bytes :=
  Spec.hkdf E.sha256 secret DerivePadBodySalt [] n

theorem bodyPad_length (E : Ext) (secret : Bytes) (n : Nat) (h : n ≤ 8160) :
    (bodyPad E secret n).length = n := hkdf_length E secret _ n h

/-- An entry in parts: tag, masked flag, length, masked body. -/
def entryParts (E : Ext) (secret : Bytes) (flag : UInt8) (body : Bytes) : Bytes :=
  Spec.keyTag E.sha256 secret ++ ([flag ^^^ flagPad E secret] ++ (be32 (UInt32.ofNat body.length) ++
    Spec.xor body (bodyPad E secret body.length)))

theorem xor_header (E : Ext) (secret : Bytes) (flag : UInt8) :
    Spec.xor (List.replicate 20 0 ++ [flag]) (Spec.hkdf E.sha256 secret DerivePadHeaderSalt [] 21) =
      Spec.keyTag E.sha256 secret ++ [flag ^^^ flagPad E secret] := by
  rw [headerPad_split, xor_append _ _ _ _ (by simp [keyTag_length]), xor_zero _ _ (keyTag_length E secret).symm]
  rfl

theorem be32_ofNat (n : Nat) (h : n < 2 ^ 32) : be32 (UInt32.ofNat n) =
    [UInt8.ofNat (n / 2 ^ 24), UInt8.ofNat (n / 2 ^ 16), UInt8.ofNat (n / 2 ^ 8), UInt8.ofNat n] := by
  simp only [be32, UInt32.toNat_ofNat', Nat.mod_eq_of_lt h]
  rfl

theorem entryParts_eq (E : Ext) (secret : Bytes) (flag : UInt8) (body : Bytes)
    (h : body.length ≤ 8160) : entryParts E secret flag body = Spec.entry E.sha256 secret flag body := by
  unfold Spec.entry
  have := xor_header E secret flag
  unfold DerivePadHeaderSalt at this
  rw [this, entryParts, be32_ofNat _ (by omega)]
  simp [bodyPad, DerivePadBodySalt]

theorem encrypt_ok (E : Ext) (enc : BucketEncryptor) (secret : Bytes) (flag : UInt8) (body : Bytes)
    (h : body.length ≤ 8160) :
    enc.encrypt E secret flag body = .ok (entryParts E secret flag body) := by
  cases enc
  unfold BucketEncryptor.encrypt
  dsimp only
  simp only [CtxtKeyCheckSize]
  rw [derivePad_ok E _ _ _ (by omega)]
  simp only [Res.ok_bind]
  have hset : setIndex (makeBytes (20 + 1)) 20 flag = .ok (List.replicate 20 0 ++ [flag]) := by
    simp only [setIndex, makeBytes_length]
    rw [if_pos (by omega)]
    rfl
  rw [hset]
  simp only [Res.ok_bind]
  rw [xorBytes_ok _ _ (by rw [hkdf_length E _ _ _ (by omega)]; rfl), xor_header]
  simp only [Res.ok_bind]
  rw [derivePad_ok E _ _ _ h]
  simp only [Res.ok_bind]
  rw [xorBytes_ok _ _ (by rw [hkdf_length E _ _ _ h])]
  simp only [Res.ok_bind]
  have hb : (Spec.xor body (Spec.hkdf E.sha256 secret DerivePadBodySalt [] body.length)).length
      = body.length := by rw [xor_length, hkdf_length E _ _ _ h]; omega
  rw [hb]
  set K := Spec.keyTag E.sha256 secret ++ [flag ^^^ flagPad E secret] with hK
  have hm : makeBytes (K.length + 4 + body.length) =
      makeBytes K.length ++ (makeBytes 4 ++ makeBytes body.length) := by
    rw [← makeBytes_add, ← makeBytes_add]; congr 1; omega
  rw [hm, copyAt_start _ _ _ (by simp)]
  simp only [Res.ok_bind]
  rw [putUint32At_mid _ _ _ _ _ rfl (by simp)]
  simp only [Res.ok_bind]
  rw [← List.append_assoc, copyAt_end _ _ _ _ (by simp) (by simp [hb])]
  simp only [entryParts, hK, bodyPad, List.append_assoc]

theorem encrypt_err (E : Ext) (enc : BucketEncryptor) (secret : Bytes) (flag : UInt8) (body : Bytes)
    (h : 8160 < body.length) : enc.encrypt E secret flag body = .err .hkdfEntropy := by
  cases enc
  unfold BucketEncryptor.encrypt
  dsimp only
  simp only [CtxtKeyCheckSize]
  rw [derivePad_ok E _ _ _ (by omega)]
  simp only [Res.ok_bind]
  have hset : setIndex (makeBytes (20 + 1)) 20 flag = .ok (List.replicate 20 0 ++ [flag]) := by
    simp only [setIndex, makeBytes_length]
    rw [if_pos (by omega)]
    rfl
  rw [hset]
  simp only [Res.ok_bind]
  rw [xorBytes_ok _ _ (by rw [hkdf_length E _ _ _ (by omega)]; rfl)]
  simp only [Res.ok_bind]
  rw [derivePad_err E _ _ _ h]
  simp

theorem entryParts_length (E : Ext) (secret : Bytes) (flag : UInt8) (body : Bytes)
    (h : body.length ≤ 8160) : (entryParts E secret flag body).length = 25 + body.length := by
  simp only [entryParts, List.length_append, keyTag_length, be32_length, xor_length,
    bodyPad_length E _ _ h, List.length_singleton]
  omega

/-- `DecryptHeader` on any input split into its fields. -/
theorem decryptHeader_parts (E : Ext) (enc : BucketEncryptor) (secret tag : Bytes) (f : UInt8)
    (len : UInt32) (rest : Bytes) (ht : tag.length = 20) :
    enc.decryptHeader E secret (tag ++ ([f] ++ (be32 len ++ rest))) =
      .ok (decide (Spec.keyTag E.sha256 secret = tag), f ^^^ flagPad E secret, len.toNat) := by
  cases enc
  unfold BucketEncryptor.decryptHeader
  dsimp only
  simp only [CtxtKeyCheckSize]
  rw [if_neg (by simp [HeaderSize, CtxtKeyCheckSize]; omega), derivePad_ok E _ _ _ (by omega), headerPad_split]
  simp only [Res.ok_bind]
  have h1 : slice (Spec.keyTag E.sha256 secret ++ [flagPad E secret]) 0 20 =
      .ok (Spec.keyTag E.sha256 secret) := by
    unfold slice
    rw [if_pos (by simp [keyTag_length])]
    simp [keyTag_length]
  have h2 : slice (tag ++ ([f] ++ (be32 len ++ rest))) 0 20 = .ok tag := by
    unfold slice
    rw [if_pos (by simp; omega)]
    simp [ht]
  have h3 : index (Spec.keyTag E.sha256 secret ++ [flagPad E secret]) 20 = .ok (flagPad E secret) := by
    unfold index
    rw [List.getElem?_append_right (by simp [keyTag_length])]
    simp [keyTag_length]
  have h4 : index (tag ++ ([f] ++ (be32 len ++ rest))) 20 = .ok f := by
    unfold index
    rw [List.getElem?_append_right (by omega)]
    simp [ht]
  have h5 : slice (tag ++ ([f] ++ (be32 len ++ rest))) (20 + 1) (20 + 5) = .ok (be32 len) := by
    unfold slice
    rw [if_pos (by simp; omega)]
    have e : tag ++ ([f] ++ (be32 len ++ rest)) = (tag ++ [f]) ++ (be32 len ++ rest) := by simp
    have hl : (tag ++ [f]).length = 21 := by simp [ht]
    rw [e, List.take_append, List.take_of_length_le (by omega), List.drop_append, hl,
      List.drop_of_length_le (by omega)]
    rfl
  rw [h1, h2, h3, h4, h5]
  simp only [Res.ok_bind]
  have := beUint32_be32 len []
  rw [List.append_nil] at this
  rw [this]
  simp only [Res.ok_bind]
  rw [UInt8.xor_comm]

theorem decryptHeader_short (E : Ext) (enc : BucketEncryptor) (secret c : Bytes) (h : c.length < 25) :
    enc.decryptHeader E secret c = .err .headerTooShort := by
  cases enc
  unfold BucketEncryptor.decryptHeader
  dsimp only
  rw [if_pos (by simpa [HeaderSize, CtxtKeyCheckSize] using h)]

/-- Any 25 bytes or more split into header fields. -/
theorem split_header (c : Bytes) (h : 25 ≤ c.length) :
    ∃ tag f len rest, tag.length = 20 ∧ c = tag ++ ([f] ++ (be32 len ++ rest)) := by
  have h20 : (c.drop 20).length = c.length - 20 := by simp
  match hd : c.drop 20 with
  | f :: a :: b :: d :: e :: rest =>
    refine ⟨c.take 20, f, UInt32.ofNat (a.toNat * 16777216 + b.toNat * 65536 + d.toNat * 256 + e.toNat),
      rest, by simp; omega, ?_⟩
    have hb : be32 (UInt32.ofNat (a.toNat * 16777216 + b.toNat * 65536 + d.toNat * 256 + e.toNat)) =
        [a, b, d, e] := by
      have := a.toNat_lt; have := b.toNat_lt; have := d.toNat_lt; have := e.toNat_lt
      simp only [be32, UInt32.toNat_ofNat', List.cons.injEq, and_true]
      refine ⟨?_, ?_, ?_, ?_⟩ <;> apply UInt8.toNat_inj.mp <;> rw [UInt8.toNat_ofNat'] <;> omega
    rw [hb]
    have := (List.take_append_drop 20 c).symm
    rw [hd] at this
    simpa using this
  | [] => rw [hd] at h20; simp at h20; omega
  | [_] => rw [hd] at h20; simp at h20; omega
  | [_, _] => rw [hd] at h20; simp at h20; omega
  | [_, _, _] => rw [hd] at h20; simp at h20; omega
  | [_, _, _, _] => rw [hd] at h20; simp at h20; omega

theorem decryptBody_ok (E : Ext) (enc : BucketEncryptor) (secret c : Bytes) (h : c.length ≤ 8160) :
    enc.decryptBody E secret c = .ok (Spec.xor c (bodyPad E secret c.length)) := by
  cases enc
  unfold BucketEncryptor.decryptBody
  dsimp only
  rw [derivePad_ok E _ _ _ h]
  simp only [Res.ok_bind]
  rw [xorBytes_ok _ _ (by rw [hkdf_length E _ _ _ h])]
  rfl

theorem decryptBody_err (E : Ext) (enc : BucketEncryptor) (secret c : Bytes) (h : 8160 < c.length) :
    enc.decryptBody E secret c = .err .hkdfEntropy := by
  cases enc
  unfold BucketEncryptor.decryptBody
  dsimp only
  rw [derivePad_err E _ _ _ h]
  simp

end Migp
