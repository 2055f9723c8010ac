import Verif.Go.Base64
import Verif.Go.JsonStruct
import Verif.Lemmas.Bytes
/-!
# Base64 and decimal numbers: what is written is read back
-/
namespace Migp

private theorem ofNat_toNat {n : Nat} (h : n < 256) : (UInt8.ofNat n).toNat = n := by
  rw [UInt8.toNat_ofNat']; omega

theorem b64Char_spec : ∀ n, n < 64 → b64Val (b64Char n) = some n ∧ (b64Char n).toNat ≠ 61 ∧
    32 ≤ (b64Char n).toNat ∧ (b64Char n).toNat < 128 ∧ (b64Char n).toNat ≠ 34 ∧ (b64Char n).toNat ≠ 92 := by
  decide

/-- The characters base64 text consists of. -/
theorem b64Encode_chars (b : Bytes) : ∀ c ∈ b64Encode b,
    32 ≤ c.toNat ∧ c.toNat < 128 ∧ c.toNat ≠ 34 ∧ c.toNat ≠ 92 := by
  have key : ∀ n, n < 64 → 32 ≤ (b64Char n).toNat ∧ (b64Char n).toNat < 128 ∧ (b64Char n).toNat ≠ 34 ∧
      (b64Char n).toNat ≠ 92 := fun n h => (b64Char_spec n h).2.2
  have lt : ∀ a : UInt8, a.toNat < 256 := fun a => a.toNat_lt
  have pad : 32 ≤ (61 : UInt8).toNat ∧ (61 : UInt8).toNat < 128 ∧ (61 : UInt8).toNat ≠ 34 ∧
      (61 : UInt8).toNat ≠ 92 := by decide
  induction b using b64Encode.induct with
  | case1 => intro c hc; simp [b64Encode] at hc
  | case2 a =>
    have := lt a
    intro c hc
    simp only [b64Encode, List.mem_cons, List.not_mem_nil, or_false] at hc
    rcases hc with rfl | rfl | rfl | rfl
    · exact key _ (by omega)
    · exact key _ (by omega)
    · exact pad
    · exact pad
  | case3 a b =>
    have := lt a
    have := lt b
    intro c hc
    simp only [b64Encode, List.mem_cons, List.not_mem_nil, or_false] at hc
    rcases hc with rfl | rfl | rfl | rfl
    · exact key _ (by omega)
    · exact key _ (by omega)
    · exact key _ (by omega)
    · exact pad
  | case4 a b d rest ih =>
    have := lt a
    have := lt b
    have := lt d
    intro c hc
    simp only [b64Encode, List.mem_cons] at hc
    rcases hc with rfl | rfl | rfl | rfl | hc
    · exact key _ (by omega)
    · exact key _ (by omega)
    · exact key _ (by omega)
    · exact key _ (by omega)
    · exact ih c hc

private theorem eq_of_toNat {a : UInt8} {n : Nat} (h : n = a.toNat) : UInt8.ofNat n = a := by
  subst h; simp

theorem b64Quanta_encode (b : Bytes) : b64Quanta (b64Encode b) = some b := by
  have v : ∀ n, n < 64 → b64Val (b64Char n) = some n := fun n h => (b64Char_spec n h).1
  have ne : ∀ n, n < 64 → (b64Char n).toNat ≠ 61 := fun n h => (b64Char_spec n h).2.1
  have lt : ∀ a : UInt8, a.toNat < 256 := fun a => a.toNat_lt
  induction b using b64Encode.induct with
  | case1 => rfl
  | case2 a =>
    have := lt a
    have e : UInt8.ofNat (a.toNat / 4 * 4 + a.toNat % 4 * 16 / 16) = a := eq_of_toNat (by omega)
    simp only [b64Encode, b64Quanta, v _ (show a.toNat / 4 < 64 by omega),
      v _ (show a.toNat % 4 * 16 < 64 by omega), e]
    rfl
  | case3 a b =>
    have := lt a
    have := lt b
    have e1 : UInt8.ofNat (a.toNat / 4 * 4 + (a.toNat % 4 * 16 + b.toNat / 16) / 16) = a :=
      eq_of_toNat (by omega)
    have e2 : UInt8.ofNat ((a.toNat % 4 * 16 + b.toNat / 16) % 16 * 16 + b.toNat % 16 * 4 / 4) = b :=
      eq_of_toNat (by omega)
    simp only [b64Encode, b64Quanta, v _ (show a.toNat / 4 < 64 by omega),
      v _ (show a.toNat % 4 * 16 + b.toNat / 16 < 64 by omega), v _ (show b.toNat % 16 * 4 < 64 by omega),
      ne _ (show b.toNat % 16 * 4 < 64 by omega), e1, e2]
    rfl
  | case4 a b d rest ih =>
    have := lt a
    have := lt b
    have := lt d
    have e1 : UInt8.ofNat (a.toNat / 4 * 4 + (a.toNat % 4 * 16 + b.toNat / 16) / 16) = a :=
      eq_of_toNat (by omega)
    have e2 : UInt8.ofNat ((a.toNat % 4 * 16 + b.toNat / 16) % 16 * 16 +
        (b.toNat % 16 * 4 + d.toNat / 64) / 4) = b := eq_of_toNat (by omega)
    have e3 : UInt8.ofNat ((b.toNat % 16 * 4 + d.toNat / 64) % 4 * 64 + d.toNat % 64) = d :=
      eq_of_toNat (by omega)
    simp only [b64Encode, b64Quanta, v _ (show a.toNat / 4 < 64 by omega),
      v _ (show a.toNat % 4 * 16 + b.toNat / 16 < 64 by omega),
      v _ (show b.toNat % 16 * 4 + d.toNat / 64 < 64 by omega),
      v _ (show d.toNat % 64 < 64 by omega),
      ne _ (show b.toNat % 16 * 4 + d.toNat / 64 < 64 by omega),
      ne _ (show d.toNat % 64 < 64 by omega), e1, e2, e3, ih, if_false]

/-- Decoding the encoding gives the bytes back. -/
theorem b64Decode_encode (b : Bytes) : b64Decode (b64Encode b) = some b := by
  unfold b64Decode
  rw [List.filter_eq_self.mpr, b64Quanta_encode]
  intro c hc
  have := b64Encode_chars b c hc
  exact decide_eq_true (by omega)

namespace Json

theorem isDigit_ofNat {n : Nat} (h : n < 10) : isDigit (UInt8.ofNat (48 + n)) = true := by
  unfold isDigit
  rw [ofNat_toNat (by omega)]
  simp; omega

theorem decRev_spec (fuel n : Nat) (h : n < fuel) : decRev fuel n ≠ [] ∧
    (∀ c ∈ decRev fuel n, isDigit c = true) ∧
    (decRev fuel n).foldr (fun d n => n * 10 + (d.toNat - 48)) 0 = n ∧
    (n ≠ 0 → ∀ l : Bytes, ∀ d : UInt8, decRev fuel n = l ++ [d] → d.toNat ≠ 48) ∧
    (n = 0 → decRev fuel n = [48]) := by
  induction fuel generalizing n with
  | zero => omega
  | succ fuel ih =>
    unfold decRev
    split
    · rename_i h10
      refine ⟨by simp, ?_, ?_, ?_, ?_⟩
      · intro c hc; rw [List.mem_singleton.mp hc]; exact isDigit_ofNat h10
      · simp only [List.foldr]; rw [ofNat_toNat (by omega)]; omega
      · intro hn l d e
        have : l = [] := by
          cases l with
          | nil => rfl
          | cons x xs => simp at e
        subst this
        simp only [List.nil_append, List.cons.injEq, and_true] at e
        rw [← e, ofNat_toNat (by omega)]; omega
      · intro hn; subst hn; rfl
    · rename_i h10
      obtain ⟨h1, h2, h3, h4, -⟩ := ih (n / 10) (by omega)
      refine ⟨by simp, ?_, ?_, ?_, ?_⟩
      · intro c hc
        rcases List.mem_cons.mp hc with rfl | hc
        · exact isDigit_ofNat (by omega)
        · exact h2 c hc
      · simp only [List.foldr]; rw [h3, ofNat_toNat (by omega)]; omega
      · intro hn l d e
        cases l with
        | nil => simp only [List.nil_append, List.cons.injEq] at e; exact absurd e.2 h1
        | cons x xs =>
          simp only [List.cons_append, List.cons.injEq] at e
          exact h4 (by omega) xs d e.2
      · omega

/-- A number is written as `0`, or as digits that do not start with `0`. -/
theorem natDec_spec (n : Nat) : (∀ c ∈ natDec n, isDigit c = true) ∧ digitsVal (natDec n) = n ∧
    (natDec n = [48] ∨ ∃ d ds, natDec n = d :: ds ∧ d.toNat ≠ 48) := by
  obtain ⟨h1, h2, h3, h4, h5⟩ := decRev_spec (n + 1) n (by omega)
  refine ⟨?_, ?_, ?_⟩
  · intro c hc; exact h2 c (List.mem_reverse.mp hc)
  · unfold digitsVal natDec; rw [List.foldl_reverse]; exact h3
  · by_cases hn : n = 0
    · left; unfold natDec; rw [h5 hn]; rfl
    · right
      unfold natDec
      cases hr : (decRev (n + 1) n).reverse with
      | nil => exact absurd (List.reverse_eq_nil_iff.mp hr) h1
      | cons d ds =>
        refine ⟨d, ds, rfl, h4 hn ds.reverse d ?_⟩
        have := congrArg List.reverse hr
        simpa using this

theorem natDec_ne_nil (n : Nat) : natDec n ≠ [] := by
  rcases (natDec_spec n).2.2 with h | ⟨d, ds, h, -⟩ <;> rw [h] <;> simp

theorem parseUint_natDec {max n : Nat} (h : n ≤ max) : parseUint max (natDec n) = some n := by
  obtain ⟨h1, h2, -⟩ := natDec_spec n
  unfold parseUint
  rw [if_pos ⟨natDec_ne_nil n, List.all_eq_true.mpr h1, by rw [h2]; exact h⟩, h2]

theorem parseInt_intDec {n : Int} (h1 : -9223372036854775808 ≤ n) (h2 : n ≤ 9223372036854775807) :
    parseInt (intDec n) = some n := by
  obtain ⟨a1, a2, -⟩ := natDec_spec n.natAbs
  have a3 := natDec_ne_nil n.natAbs
  unfold intDec
  split
  · rename_i hn
    unfold parseInt
    dsimp only
    rw [if_pos (by decide), if_pos ⟨a3, List.all_eq_true.mpr a1, by rw [a2]; omega⟩, a2]
    exact congrArg some (by omega)
  · rename_i hn
    cases hd : natDec n.natAbs with
    | nil => exact absurd hd a3
    | cons c ds =>
      have hc : isDigit c = true := a1 c (by rw [hd]; exact List.mem_cons_self)
      unfold parseInt
      dsimp only
      rw [if_neg (by unfold isDigit at hc; simp at hc; omega), ← hd,
        if_pos ⟨List.all_eq_true.mpr a1, by rw [a2]; omega⟩, a2]
      exact congrArg some (by omega)

end Json
end Migp
