import Verif.Go.Utf8
import Verif.Spec.Utf8
import Verif.Lemmas.Json
import Mathlib.Tactic.SplitIfs
/-!
# The rune functions are about UTF-8
-/
namespace Migp
open Spec

theorem char_range (ch : Char) : ch.toNat < 0xD800 ∨ (0xDFFF < ch.toNat ∧ ch.toNat < 0x110000) := ch.valid

theorem charOf {n : Nat} (h : n < 0xD800 ∨ (0xDFFF < n ∧ n < 0x110000)) : ∃ ch : Char, ch.toNat = n := by
  refine ⟨Char.ofNat n, ?_⟩
  have hv : n.isValidChar := h
  simp [Char.ofNat, hv, Char.toNat, Char.ofNatAux, UInt32.toNat]

theorem encodeRune_eq (ch : Char) : encodeRune ch.toNat = utf8 ch := by
  have hr := char_range ch
  unfold encodeRune utf8 String.utf8EncodeChar
  rw [show ch.val.toNat = ch.toNat from rfl]
  dsimp only
  generalize ch.toNat = n at *
  by_cases h1 : n < 0x80
  · rw [if_pos h1, if_pos (c := n ≤ 0x7f) (by omega)]
  rw [if_neg h1, if_neg (c := n ≤ 0x7f) (by omega)]
  by_cases h2 : n < 0x800
  · rw [if_pos h2, if_pos (c := n ≤ 0x7ff) (by omega)]
    rw [show 0xC0 + n / 64 = n / 64 % 0x20 + 0xC0 by omega, Nat.add_comm 0x80]
  rw [if_neg h2, if_neg (c := n ≤ 0x7ff) (by omega)]
  by_cases h3 : n < 0x10000
  · rw [if_pos h3, if_pos (c := n ≤ 0xffff) (by omega)]
    rw [show 0xE0 + n / 4096 = n / 4096 % 0x10 + 0xE0 by omega, Nat.add_comm 0x80, Nat.add_comm 0x80]
  rw [if_neg h3, if_neg (c := n ≤ 0xffff) (by omega)]
  rw [show 0xF0 + n / 262144 = n / 262144 % 0x08 + 0xF0 by omega, Nat.add_comm 0x80, Nat.add_comm 0x80, Nat.add_comm 0x80]

theorem toNat_ofNat {n : Nat} (h : n < 256) : (UInt8.ofNat n).toNat = n := by
  simp; omega

/-- The encodings, by their bytes. -/
theorem utf8_cases (ch : Char) :
    (ch.toNat < 0x80 ∧ ∃ a, utf8 ch = [a] ∧ a.toNat = ch.toNat) ∨
    (0x80 ≤ ch.toNat ∧ ∃ a b, utf8 ch = [a, b] ∧ 0xC2 ≤ a.toNat ∧ a.toNat ≤ 0xDF ∧ 0x80 ≤ b.toNat ∧ b.toNat ≤ 0xBF ∧
      ch.toNat = (a.toNat - 0xC0) * 64 + (b.toNat - 0x80)) ∨
    (0x80 ≤ ch.toNat ∧ ∃ a b c, utf8 ch = [a, b, c] ∧ 0xE0 ≤ a.toNat ∧ a.toNat ≤ 0xEF ∧ 0x80 ≤ b.toNat ∧ b.toNat ≤ 0xBF ∧
      0x80 ≤ c.toNat ∧ c.toNat ≤ 0xBF ∧ (a.toNat = 0xE0 → 0xA0 ≤ b.toNat) ∧ (a.toNat = 0xED → b.toNat ≤ 0x9F) ∧
      ch.toNat = (a.toNat - 0xE0) * 4096 + (b.toNat - 0x80) * 64 + (c.toNat - 0x80)) ∨
    (0x80 ≤ ch.toNat ∧ ∃ a b c d, utf8 ch = [a, b, c, d] ∧ 0xF0 ≤ a.toNat ∧ a.toNat ≤ 0xF4 ∧ 0x80 ≤ b.toNat ∧
      b.toNat ≤ 0xBF ∧ 0x80 ≤ c.toNat ∧ c.toNat ≤ 0xBF ∧ 0x80 ≤ d.toNat ∧ d.toNat ≤ 0xBF ∧
      (a.toNat = 0xF0 → 0x90 ≤ b.toNat) ∧ (a.toNat = 0xF4 → b.toNat ≤ 0x8F) ∧
      ch.toNat = (a.toNat - 0xF0) * 262144 + (b.toNat - 0x80) * 4096 + (c.toNat - 0x80) * 64 + (d.toNat - 0x80)) := by
  have hr := char_range ch
  rw [← encodeRune_eq]
  unfold encodeRune
  generalize ch.toNat = n at *
  by_cases h1 : n < 0x80
  · rw [if_pos h1]
    exact .inl ⟨h1, _, rfl, toNat_ofNat (by omega)⟩
  rw [if_neg h1]
  by_cases h2 : n < 0x800
  · rw [if_pos h2]
    refine .inr (.inl ⟨by omega, _, _, rfl, ?_⟩)
    rw [toNat_ofNat (by omega), toNat_ofNat (by omega)]
    omega
  rw [if_neg h2]
  by_cases h3 : n < 0x10000
  · rw [if_pos h3]
    refine .inr (.inr (.inl ⟨by omega, _, _, _, rfl, ?_⟩))
    rw [toNat_ofNat (by omega), toNat_ofNat (by omega), toNat_ofNat (by omega)]
    omega
  rw [if_neg h3]
  refine .inr (.inr (.inr ⟨by omega, _, _, _, _, rfl, ?_⟩))
  rw [toNat_ofNat (by omega), toNat_ofNat (by omega), toNat_ofNat (by omega), toNat_ofNat (by omega)]
  omega

/-- The rune at the front of a string has the width of its encoding. -/
theorem utf8_width (ch : Char) (t : Bytes) : runeWidth (utf8 ch ++ t) = (utf8 ch).length := by
  rcases utf8_cases ch with ⟨h, a, e, ha⟩ | ⟨h, a, b, e, hb⟩ | ⟨h, a, b, c, e, hb⟩ | ⟨h, a, b, c, d, e, hb⟩
  all_goals
    rw [e]
    unfold runeWidth inRange
    simp only [List.cons_append, List.nil_append, List.length_cons, List.length_nil, List.getElem?_cons_zero,
      List.getElem?_cons_succ, Bool.and_eq_true, decide_eq_true_eq, beq_iff_eq, Bool.if_true_left]
  · rw [if_pos (by omega)]
  · rw [if_neg (by omega), if_pos (by omega), if_pos (by omega)]
  · rw [if_neg (by omega), if_neg (by omega)]
    by_cases h0 : a.toNat = 224
    · rw [if_pos h0, if_pos (by omega)]
    rw [if_neg h0]
    by_cases h1 : a.toNat = 237
    · rw [if_pos h1, if_pos (by omega)]
    rw [if_neg h1, if_pos (by omega), if_pos (by omega)]
  · rw [if_neg (by omega), if_neg (by omega), if_neg (by omega), if_neg (by omega), if_neg (by omega)]
    by_cases h0 : a.toNat = 240
    · rw [if_pos h0, if_pos (by omega)]
    rw [if_neg h0]
    by_cases h1 : a.toNat = 244
    · rw [if_pos h1, if_pos (by omega)]
    rw [if_neg h1, if_pos (by omega), if_pos (by omega)]

theorem utf8_high {ch : Char} (h : 0x80 ≤ ch.toNat) : ∀ c ∈ utf8 ch, 0x80 ≤ c.toNat := by
  rcases utf8_cases ch with ⟨h, a, e, ha⟩ | ⟨h, a, b, e, hb⟩ | ⟨h, a, b, c, e, hb⟩ | ⟨h, a, b, c, d, e, hb⟩
  · omega
  all_goals
    rw [e]
    simp only [List.mem_cons, List.not_mem_nil, or_false, forall_eq_or_imp, forall_eq]
    omega

theorem utf8_multi {ch : Char} (h : 0x80 ≤ ch.toNat) : 2 ≤ (utf8 ch).length ∧ (utf8 ch).length ≤ 4 := by
  rcases utf8_cases ch with ⟨h, a, e, ha⟩ | ⟨h, a, b, e, hb⟩ | ⟨h, a, b, c, e, hb⟩ | ⟨h, a, b, c, d, e, hb⟩
  · omega
  all_goals rw [e]; simp

theorem utf8_ascii {ch : Char} (h : ch.toNat < 0x80) : ∃ a, utf8 ch = [a] ∧ a.toNat = ch.toNat := by
  rcases utf8_cases ch with ⟨h, a, e, ha⟩ | ⟨h, a, b, e, hb⟩ | ⟨h, a, b, c, e, hb⟩ | ⟨h, a, b, c, d, e, hb⟩
  · exact ⟨a, e, ha⟩
  all_goals omega

theorem ascii_utf8 {a : UInt8} (h : a.toNat < 0x80) : ∃ ch : Char, ch.toNat = a.toNat ∧ utf8 ch = [a] := by
  obtain ⟨ch, hc⟩ := charOf (n := a.toNat) (by omega)
  obtain ⟨b, e, hb⟩ := utf8_ascii (ch := ch) (by omega)
  exact ⟨ch, hc, by rw [e, UInt8.toNat_inj.mp (hb.trans hc)]⟩

theorem ofNat_eq {n : Nat} {a : UInt8} (h : n = a.toNat) : UInt8.ofNat n = a := by
  subst h; simp

theorem utf8_of2 {a b : UInt8} (h : 0xC2 ≤ a.toNat ∧ a.toNat ≤ 0xDF ∧ 0x80 ≤ b.toNat ∧ b.toNat ≤ 0xBF) :
    ∃ ch : Char, 0x80 ≤ ch.toNat ∧ utf8 ch = [a, b] := by
  obtain ⟨ch, hc⟩ := charOf (n := (a.toNat - 0xC0) * 64 + (b.toNat - 0x80)) (by omega)
  refine ⟨ch, by omega, ?_⟩
  rw [← encodeRune_eq, hc]
  unfold encodeRune
  rw [if_neg (by omega), if_pos (by omega), ofNat_eq (a := a) (by omega), ofNat_eq (a := b) (by omega)]

theorem utf8_of3 {a b c : UInt8} (h : 0xE0 ≤ a.toNat ∧ a.toNat ≤ 0xEF ∧ 0x80 ≤ b.toNat ∧ b.toNat ≤ 0xBF ∧
    0x80 ≤ c.toNat ∧ c.toNat ≤ 0xBF) (h1 : a.toNat = 0xE0 → 0xA0 ≤ b.toNat) (h2 : a.toNat = 0xED → b.toNat ≤ 0x9F) :
    ∃ ch : Char, 0x80 ≤ ch.toNat ∧ utf8 ch = [a, b, c] := by
  obtain ⟨ch, hc⟩ := charOf (n := (a.toNat - 0xE0) * 4096 + (b.toNat - 0x80) * 64 + (c.toNat - 0x80)) (by omega)
  refine ⟨ch, by omega, ?_⟩
  rw [← encodeRune_eq, hc]
  unfold encodeRune
  rw [if_neg (by omega), if_neg (by omega), if_pos (by omega), ofNat_eq (a := a) (by omega),
    ofNat_eq (a := b) (by omega), ofNat_eq (a := c) (by omega)]

theorem utf8_of4 {a b c d : UInt8} (h : 0xF0 ≤ a.toNat ∧ a.toNat ≤ 0xF4 ∧ 0x80 ≤ b.toNat ∧ b.toNat ≤ 0xBF ∧
    0x80 ≤ c.toNat ∧ c.toNat ≤ 0xBF ∧ 0x80 ≤ d.toNat ∧ d.toNat ≤ 0xBF) (h1 : a.toNat = 0xF0 → 0x90 ≤ b.toNat)
    (h2 : a.toNat = 0xF4 → b.toNat ≤ 0x8F) : ∃ ch : Char, 0x80 ≤ ch.toNat ∧ utf8 ch = [a, b, c, d] := by
  obtain ⟨ch, hc⟩ := charOf
    (n := (a.toNat - 0xF0) * 262144 + (b.toNat - 0x80) * 4096 + (c.toNat - 0x80) * 64 + (d.toNat - 0x80)) (by omega)
  refine ⟨ch, by omega, ?_⟩
  rw [← encodeRune_eq, hc]
  unfold encodeRune
  rw [if_neg (by omega), if_neg (by omega), if_neg (by omega), ofNat_eq (a := a) (by omega),
    ofNat_eq (a := b) (by omega), ofNat_eq (a := c) (by omega), ofNat_eq (a := d) (by omega)]

/-- A rune of more than one byte is the encoding of a character. -/
theorem width_utf8 (s : Bytes) (h : 2 ≤ runeWidth s) : ∃ ch : Char, 0x80 ≤ ch.toNat ∧ utf8 ch = s.take (runeWidth s) := by
  have key : ∀ (a : UInt8) (rest : Bytes) (x y z : Nat), x = (rest.getD 0 0).toNat → y = (rest.getD 1 0).toNat →
      z = (rest.getD 2 0).toNat →
      (runeWidth (a :: rest) = 2 → 1 ≤ rest.length ∧ 0xC2 ≤ a.toNat ∧ a.toNat ≤ 0xDF ∧ 0x80 ≤ x ∧ x ≤ 0xBF) ∧
      (runeWidth (a :: rest) = 3 → 2 ≤ rest.length ∧ (0xE0 ≤ a.toNat ∧ a.toNat ≤ 0xEF ∧ 0x80 ≤ x ∧ x ≤ 0xBF ∧
        0x80 ≤ y ∧ y ≤ 0xBF) ∧ (a.toNat = 0xE0 → 0xA0 ≤ x) ∧ (a.toNat = 0xED → x ≤ 0x9F)) ∧
      (runeWidth (a :: rest) = 4 → 3 ≤ rest.length ∧ (0xF0 ≤ a.toNat ∧ a.toNat ≤ 0xF4 ∧ 0x80 ≤ x ∧ x ≤ 0xBF ∧
        0x80 ≤ y ∧ y ≤ 0xBF ∧ 0x80 ≤ z ∧ z ≤ 0xBF) ∧ (a.toNat = 0xF0 → 0x90 ≤ x) ∧
        (a.toNat = 0xF4 → x ≤ 0x8F)) ∧ runeWidth (a :: rest) ≤ 4 := by
    intro a rest x y z
    unfold runeWidth inRange
    rcases rest with - | ⟨b, - | ⟨c, - | ⟨d, r⟩⟩⟩ <;>
      simp only [List.getElem?_cons_zero, List.getElem?_cons_succ, List.getElem?_nil, Bool.and_eq_true,
        decide_eq_true_eq, beq_iff_eq, Bool.false_eq_true, and_false, false_and, if_false, List.length_cons,
        List.length_nil, List.getD_cons_zero, List.getD_cons_succ] <;> intro hx hy hz <;> clear h <;> subst hx hy hz <;>
      split_ifs <;> omega
  rcases s with - | ⟨a, rest⟩
  · simp [runeWidth] at h
  obtain ⟨k2, k3, k4, kl⟩ := key a rest _ _ _ rfl rfl rfl
  obtain hw | hw | hw : runeWidth (a :: rest) = 2 ∨ runeWidth (a :: rest) = 3 ∨ runeWidth (a :: rest) = 4 := by omega
  · obtain ⟨hl, hb⟩ := k2 hw
    rcases rest with - | ⟨b, r⟩
    · simp at hl
    · rw [hw]; exact utf8_of2 hb
  · obtain ⟨hl, hb, h1, h2⟩ := k3 hw
    rcases rest with - | ⟨b, - | ⟨c, r⟩⟩
    · simp at hl
    · simp at hl
    · rw [hw]; exact utf8_of3 hb h1 h2
  · obtain ⟨hl, hb, h1, h2⟩ := k4 hw
    rcases rest with - | ⟨b, - | ⟨c, - | ⟨d, r⟩⟩⟩
    · simp at hl
    · simp at hl
    · simp at hl
    · rw [hw]; exact utf8_of4 hb h1 h2

end Migp
