import Verif.Lemmas.Bytes
import Verif.Model.Common
import Verif.Spec.Encoding
/-! # Lemmas on `common.go` -/
namespace Migp

/-- The buffer operations compute the concatenation of the four fields (length fields modulo
2^16). -/
theorem serialize_ok (u p : Bytes) (hu : u.length ≤ 65536) (hp : p.length ≤ 65536) :
    serializeUsernamePassword u p =
      .ok (be16 (UInt16.ofNat u.length) ++ (u ++ (be16 (UInt16.ofNat p.length) ++ p))) := by
  unfold serializeUsernamePassword
  rw [if_neg (by omega)]
  have hm : makeBytes (4 + u.length + p.length) =
      [] ++ (makeBytes 2 ++ (makeBytes u.length ++ (makeBytes 2 ++ makeBytes p.length))) := by
    rw [List.nil_append, ← makeBytes_add, ← makeBytes_add, ← makeBytes_add]; congr 1; omega
  dsimp only
  rw [hm, putUint16At_mid [] (makeBytes 2) _ 0 _ rfl (by simp)]
  simp only [Res.ok_bind, List.nil_append]
  rw [copyAt_mid _ _ _ _ _ (by simp) (by simp)]
  simp only [Res.ok_bind]
  rw [← List.append_assoc (be16 _) u, putUint16At_mid _ _ _ _ _ (by simp) (by simp)]
  simp only [Res.ok_bind]
  rw [← List.append_assoc, copyAt_end _ _ _ _ (by simp; omega) (by simp)]
  simp

theorem serialize_panic (u p : Bytes) (h : 65536 < u.length ∨ 65536 < p.length) :
    serializeUsernamePassword u p = .panic .lengthOverflow := by
  unfold serializeUsernamePassword
  rw [if_pos (by omega)]

theorem len16_be16 (n : Nat) (h : n < 65536) : Spec.len16 n = be16 (UInt16.ofNat n) := by
  rw [be16_toNat n h]
  simp only [Spec.len16, List.cons.injEq, and_true, true_and]
  apply UInt8.toNat_inj.mp
  simp

theorem parseField_append (f rest : Bytes) (h : f.length < 65536) :
    Spec.parseField (Spec.len16 f.length ++ (f ++ rest)) = some (f, rest) := by
  simp only [Spec.len16, List.cons_append, List.nil_append, Spec.parseField, UInt8.toNat_ofNat']
  have hn : f.length / 256 % 2 ^ 8 * 256 + f.length % 256 % 2 ^ 8 = f.length := by omega
  rw [hn]
  simp

/-! ## Bucket identifiers -/

theorem foldl_bits (l : List Bool) (n : Nat) :
    l.foldl (fun n b => 2 * n + (if b then 1 else 0)) n = n * 2 ^ l.length + Spec.natOfBits l := by
  induction l generalizing n with
  | nil => simp [Spec.natOfBits]
  | cons b l ih =>
    simp only [List.foldl_cons, List.length_cons, Spec.natOfBits]
    rw [ih, ih, Nat.pow_succ, Nat.add_mul, Nat.add_mul]
    have : 2 * n * 2 ^ l.length = n * (2 ^ l.length * 2) := by
      rw [Nat.mul_comm 2 n, Nat.mul_assoc, Nat.mul_comm 2]
    omega

theorem natOfBits_append (a b : List Bool) :
    Spec.natOfBits (a ++ b) = Spec.natOfBits a * 2 ^ b.length + Spec.natOfBits b := by
  have h : Spec.natOfBits (a ++ b) =
      b.foldl (fun n b => 2 * n + (if b then 1 else 0)) (Spec.natOfBits a) := by
    simp only [Spec.natOfBits, List.foldl_append]
  rw [h]
  exact foldl_bits b _

theorem natOfBits_lt (l : List Bool) : Spec.natOfBits l < 2 ^ l.length := by
  induction l with
  | nil => simp [Spec.natOfBits]
  | cons b l ih =>
    have := natOfBits_append [b] l
    have hb : Spec.natOfBits [b] ≤ 1 := by cases b <;> simp [Spec.natOfBits]
    have h2 : Spec.natOfBits [b] * 2 ^ l.length ≤ 1 * 2 ^ l.length := Nat.mul_le_mul_right _ hb
    simp only [List.singleton_append] at this
    rw [this, List.length_cons, Nat.pow_succ]
    omega

theorem natOfBits_take (l : List Bool) (k : Nat) :
    Spec.natOfBits (l.take k) = Spec.natOfBits l / 2 ^ (l.length - k) := by
  have h := natOfBits_append (l.take k) (l.drop k)
  rw [List.take_append_drop, List.length_drop] at h
  rw [h, Nat.mul_comm, Nat.mul_add_div (Nat.two_pow_pos _)]
  have := natOfBits_lt (l.drop k)
  rw [List.length_drop] at this
  rw [Nat.div_eq_of_lt this]; rfl

theorem natOfBits_byte (b : UInt8) : Spec.natOfBits (Spec.bitsOfByte b) = b.toNat := by
  have key : ∀ n : Fin 256, Spec.natOfBits
      [n.val / 128 % 2 == 1, n.val / 64 % 2 == 1, n.val / 32 % 2 == 1, n.val / 16 % 2 == 1,
       n.val / 8 % 2 == 1, n.val / 4 % 2 == 1, n.val / 2 % 2 == 1, n.val % 2 == 1] = n.val := by
    decide +kernel
  exact key ⟨b.toNat, b.toNat_lt⟩

@[simp] theorem bitsOfByte_length (b : UInt8) : (Spec.bitsOfByte b).length = 8 := rfl

theorem natOfBits_four (a b c d : UInt8) :
    Spec.natOfBits (Spec.bitsOf [a, b, c, d]) =
      a.toNat * 16777216 + b.toNat * 65536 + c.toNat * 256 + d.toNat := by
  simp only [Spec.bitsOf, List.flatMap_cons, List.flatMap_nil, natOfBits_append,
    List.length_append, bitsOfByte_length, natOfBits_byte, List.append_nil]
  have := a.toNat_lt; have := b.toNat_lt; have := c.toNat_lt; have := d.toNat_lt
  omega

theorem bitsOf_take (a b c d : UInt8) (rest : Bytes) (k : Nat) (hk : k ≤ 32) :
    Spec.natOfBits ((Spec.bitsOf (a :: b :: c :: d :: rest)).take k) =
      (a.toNat * 16777216 + b.toNat * 65536 + c.toNat * 256 + d.toNat) / 2 ^ (32 - k) := by
  have h : Spec.bitsOf (a :: b :: c :: d :: rest) = Spec.bitsOf [a, b, c, d] ++ Spec.bitsOf rest := by
    simp [Spec.bitsOf]
  have hl : (Spec.bitsOf [a, b, c, d]).length = 32 := rfl
  rw [h, List.take_append_of_le_length (by omega), natOfBits_take, natOfBits_four, hl]

theorem goShr32_ok (x : UInt32) (k : Nat) (hk : k ≤ 32) :
    ∃ y, goShr32 x (k : Int) = .ok y ∧ y.toNat = x.toNat / 2 ^ k := by
  unfold goShr32
  rw [if_neg (by omega)]
  by_cases h : k < 32
  · rw [if_pos (by omega)]
    refine ⟨_, rfl, ?_⟩
    simp only [UInt32.toNat_shiftRight, Int.toNat_natCast, UInt32.toNat_ofNat',
      Nat.shiftRight_eq_div_pow]
    have : k % 2 ^ 32 % 32 = k := by omega
    rw [this]
  · rw [if_neg (by omega)]
    refine ⟨0, rfl, ?_⟩
    have : k = 32 := by omega
    subst this
    have := x.toNat_lt
    symm
    exact Nat.div_eq_of_lt this

theorem mask32_ok (k : Nat) (hk : k ≤ 32) :
    ∃ y, goShl32 1 (k : Int) = .ok y ∧ (y - 1).toNat = 2 ^ k - 1 := by
  unfold goShl32
  rw [if_neg (by omega)]
  by_cases h : k < 32
  · rw [if_pos (by omega)]
    refine ⟨_, rfl, ?_⟩
    have key : ∀ k : Fin 32, ((1 : UInt32) <<< UInt32.ofNat k.val - 1).toNat = 2 ^ k.val - 1 := by
      decide +kernel
    exact key ⟨k, h⟩
  · rw [if_neg (by omega)]
    have : k = 32 := by omega
    subst this
    exact ⟨0, rfl, by decide⟩

/-- `bucketHashToID` computes the first `k` bits. -/
theorem bucketHashToID_ok (a b c d : UInt8) (rest : Bytes) (k : Nat) (hk : k ≤ 32) :
    ∃ id, bucketHashToID (a :: b :: c :: d :: rest) (k : Int) = .ok id ∧
      id.toNat = Spec.natOfBits ((Spec.bitsOf (a :: b :: c :: d :: rest)).take k) := by
  unfold bucketHashToID
  rw [if_neg (by omega)]
  simp only [beUint32, Res.ok_bind]
  have h32 : (32 : Int) - (k : Int) = ((32 - k : Nat) : Int) := by omega
  rw [h32]
  generalize hx : UInt32.ofNat (a.toNat * 16777216 + b.toNat * 65536 + c.toNat * 256 + d.toNat) = x
  obtain ⟨y, hy, hy'⟩ := goShr32_ok x (32 - k) (by omega)
  obtain ⟨m, hm, hm'⟩ := mask32_ok k hk
  rw [hy, hm]
  refine ⟨_, rfl, ?_⟩
  rw [UInt32.toNat_and, hm', Nat.and_two_pow_sub_one_eq_mod, hy', bitsOf_take _ _ _ _ _ _ hk]
  have hn : x.toNat = a.toNat * 16777216 + b.toNat * 65536 + c.toNat * 256 + d.toNat := by
    subst hx
    have := a.toNat_lt; have := b.toNat_lt; have := c.toNat_lt; have := d.toNat_lt
    rw [UInt32.toNat_ofNat']
    omega
  rw [← hn]
  apply Nat.mod_eq_of_lt
  rw [Nat.div_lt_iff_lt_mul (Nat.two_pow_pos _), ← Nat.pow_add]
  have : k + (32 - k) = 32 := by omega
  rw [this]
  exact x.toNat_lt

theorem bucketHashToID_panic (h : Bytes) (hh : 4 ≤ h.length) (k : Int) (hk : k < 0 ∨ 32 < k) :
    (bucketHashToID h k).IsPanic := by
  unfold bucketHashToID
  split
  · simp
  · obtain ⟨a, b, c, d, rest, rfl⟩ : ∃ a b c d rest, h = a :: b :: c :: d :: rest := by
      match h, hh with
      | a :: b :: c :: d :: rest, _ => exact ⟨a, b, c, d, rest, rfl⟩
    simp only [beUint32, Res.ok_bind, goShr32]
    rw [if_neg (by omega), if_neg (by omega)]
    simp only [Res.ok_bind, goShl32]
    rw [if_pos (by omega)]
    simp

/-! ## Hexadecimal -/

theorem hexDigit_lower (n : Nat) (h : n < 16) : Spec.IsLowerHex (hexDigit n) := by
  have key : ∀ n : Fin 16, (48 ≤ (hexDigit n.val).toNat ∧ (hexDigit n.val).toNat ≤ 57) ∨
      (97 ≤ (hexDigit n.val).toNat ∧ (hexDigit n.val).toNat ≤ 102) := by decide +kernel
  exact key ⟨n, h⟩

theorem fromHexChar_hexDigit (n : Nat) (h : n < 16) : fromHexChar (hexDigit n) = some n := by
  have key : ∀ n : Fin 16, fromHexChar (hexDigit n.val) = some n.val := by decide +kernel
  exact key ⟨n, h⟩

theorem hexValue_hexDigit (n : Nat) (h : n < 16) : Spec.hexValue (hexDigit n) = n := by
  have key : ∀ n : Fin 16, Spec.hexValue (hexDigit n.val) = n.val := by decide +kernel
  exact key ⟨n, h⟩

theorem hexDecode_hexEncode (b : Bytes) : hexDecode (hexEncode b) = some b := by
  induction b with
  | nil => rfl
  | cons x xs ih =>
    have hx := x.toNat_lt
    rw [hexEncode, hexDecode, fromHexChar_hexDigit _ (by omega), fromHexChar_hexDigit _ (by omega), ih]
    simp only [Option.some.injEq, List.cons.injEq, and_true]
    apply UInt8.toNat_inj.mp
    rw [UInt8.toNat_ofNat']
    omega

theorem hexEncode_length (b : Bytes) : (hexEncode b).length = 2 * b.length := by
  induction b with
  | nil => rfl
  | cons x xs ih => simp [hexEncode, ih]; omega

theorem hexEncode_lower (b : Bytes) : ∀ c ∈ hexEncode b, Spec.IsLowerHex c := by
  induction b with
  | nil => simp [hexEncode]
  | cons x xs ih =>
    have hx := x.toNat_lt
    intro c hc
    rw [hexEncode] at hc
    simp only [List.mem_cons] at hc
    rcases hc with rfl | rfl | hc
    · exact hexDigit_lower _ (by omega)
    · exact hexDigit_lower _ (by omega)
    · exact ih c hc

theorem BucketIDToHex_inj {a b : UInt32} (h : BucketIDToHex a = BucketIDToHex b) : a = b := by
  have h1 := hexDecode_hexEncode (be32 a)
  have h2 := hexDecode_hexEncode (be32 b)
  unfold BucketIDToHex at h
  rw [h, h2] at h1
  injection h1 with h1
  exact (be32_inj h1).symm

theorem fromHexChar_isSome (c : UInt8) : (fromHexChar c).isSome ↔ Spec.IsHex c := by
  unfold fromHexChar Spec.IsHex Spec.IsLowerHex
  split
  · simp; omega
  · split
    · simp; omega
    · split
      · simp; omega
      · simp; omega

end Migp
