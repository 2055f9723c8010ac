import Verif.Spec.JsonGrammar
import Verif.Lemmas.Utf8
import Mathlib.Tactic.ByContra
import Mathlib.Logic.Basic
/-!
# Strings between quotes
-/
namespace Migp.Json
open Migp.Spec

/-- A hexadecimal digit. -/
def IsHexDigit (c : UInt8) : Prop :=
  (48 ≤ c.toNat ∧ c.toNat ≤ 57) ∨ (65 ≤ c.toNat ∧ c.toNat ≤ 70) ∨ (97 ≤ c.toNat ∧ c.toNat ≤ 102)

/-- What can be between quotes: no control characters, no quotes, and backslashes only in the escapes of JSON. -/
inductive IsChars : Bytes → Prop
  | nil : IsChars []
  | plain {c : UInt8} {rest : Bytes} : 32 ≤ c.toNat → c ≠ 34 → c ≠ 92 → IsChars rest → IsChars (c :: rest)
  | esc {c : UInt8} {rest : Bytes} : c ∈ ascii "bfnrt\\/\"" → IsChars rest → IsChars (92 :: c :: rest)
  | uni {a b c d : UInt8} {rest : Bytes} : IsHexDigit a → IsHexDigit b → IsHexDigit c → IsHexDigit d → IsChars rest →
      IsChars (92 :: 117 :: a :: b :: c :: d :: rest)

theorem hexIs_iff (c : UInt8) (n : Nat) : fromHexChar c = some n ↔ HexIs c n := by
  unfold fromHexChar HexIs
  split
  · simp; omega
  split
  · simp; omega
  split
  · simp; omega
  · simp; omega

theorem isHexDigit_iff (c : UInt8) : IsHexDigit c ↔ ∃ n, HexIs c n := by
  unfold IsHexDigit HexIs
  constructor
  · rintro (⟨h1, h2⟩ | ⟨h1, h2⟩ | ⟨h1, h2⟩)
    · exact ⟨_, .inl ⟨h1, h2, rfl⟩⟩
    · exact ⟨_, .inr (.inl ⟨h1, h2, rfl⟩)⟩
    · exact ⟨_, .inr (.inr ⟨h1, h2, rfl⟩)⟩
  · rintro ⟨n, h⟩; omega

theorem hexIs_lt {c : UInt8} {n : Nat} (h : HexIs c n) : n < 16 := by unfold HexIs at h; omega

theorem unicodeEscape_hex4 {a b c d : UInt8} (ha : IsHexDigit a) (hb : IsHexDigit b) (hc : IsHexDigit c) (hd : IsHexDigit d) :
    UnicodeEscape [92, 117, a, b, c, d] (hex4 a b c d) := by
  obtain ⟨na, ha⟩ := (isHexDigit_iff a).mp ha
  obtain ⟨nb, hb⟩ := (isHexDigit_iff b).mp hb
  obtain ⟨nc, hc⟩ := (isHexDigit_iff c).mp hc
  obtain ⟨nd, hd⟩ := (isHexDigit_iff d).mp hd
  refine ⟨a, b, c, d, na, nb, nc, nd, rfl, ha, hb, hc, hd, ?_⟩
  unfold hex4
  rw [(hexIs_iff a na).mpr ha, (hexIs_iff b nb).mpr hb, (hexIs_iff c nc).mpr hc, (hexIs_iff d nd).mpr hd]
  simp only [Option.getD_some]
  omega

theorem unicodeEscape_inv {e : Bytes} {n : Nat} (h : UnicodeEscape e n) : ∃ a b c d, e = [92, 117, a, b, c, d] ∧
    IsHexDigit a ∧ IsHexDigit b ∧ IsHexDigit c ∧ IsHexDigit d ∧ hex4 a b c d = n ∧ n < 65536 := by
  obtain ⟨a, b, c, d, na, nb, nc, nd, rfl, ha, hb, hc, hd, rfl⟩ := h
  refine ⟨a, b, c, d, rfl, (isHexDigit_iff a).mpr ⟨_, ha⟩, (isHexDigit_iff b).mpr ⟨_, hb⟩, (isHexDigit_iff c).mpr ⟨_, hc⟩,
    (isHexDigit_iff d).mpr ⟨_, hd⟩, ?_, ?_⟩
  · unfold hex4
    rw [(hexIs_iff a na).mpr ha, (hexIs_iff b nb).mpr hb, (hexIs_iff c nc).mpr hc, (hexIs_iff d nd).mpr hd]
    simp only [Option.getD_some]
    omega
  · have := hexIs_lt ha; have := hexIs_lt hb; have := hexIs_lt hc; have := hexIs_lt hd
    omega

theorem replacement_eq : replacement = replacementChar := by decide

theorem unquote_multi {r : Bytes} (h2 : 2 ≤ r.length) (h4 : r.length ≤ 4) (hw : ∀ t, runeWidth (r ++ t) = r.length)
    (hc : ∀ c ∈ r, 0x80 ≤ c.toNat) (t : Bytes) : unquote (r ++ t) = r ++ unquote t := by
  have hwt := hw t
  rcases r with - | ⟨a, - | ⟨b, - | ⟨c, - | ⟨d, - | ⟨e, r⟩⟩⟩⟩⟩
  · simp at h2
  · simp at h2
  · have := hc a (by simp)
    simp only [List.cons_append, List.nil_append] at hwt ⊢
    rw [unquote.eq_def]
    dsimp only
    rw [if_neg (by omega), if_neg (by omega), hwt]
    rfl
  · have := hc a (by simp)
    simp only [List.cons_append, List.nil_append] at hwt ⊢
    rw [unquote.eq_def]
    dsimp only
    rw [if_neg (by omega), if_neg (by omega), hwt]
    rfl
  · have := hc a (by simp)
    simp only [List.cons_append, List.nil_append] at hwt ⊢
    rw [unquote.eq_def]
    dsimp only
    rw [if_neg (by omega), if_neg (by omega), hwt]
    rfl
  · simp at h4

theorem width_invalid {c : UInt8} {rest : Bytes} (h : ∀ ch : Char, ¬ utf8 ch <+: c :: rest) :
    0x80 ≤ c.toNat ∧ runeWidth (c :: rest) = 1 := by
  have h1 : 0x80 ≤ c.toNat := by
    by_contra hc
    obtain ⟨ch, -, e⟩ := ascii_utf8 (a := c) (by omega)
    exact h ch (by rw [e]; exact ⟨rest, rfl⟩)
  refine ⟨h1, ?_⟩
  have hp := (runeWidth_piece (c :: rest) (by simp)).2.1
  by_contra hw
  obtain ⟨ch, -, e⟩ := width_utf8 (c :: rest) (by omega)
  exact h ch (by rw [e]; exact List.take_prefix _ _)

theorem unquote_invalid {c : UInt8} {rest : Bytes} (h : ∀ ch : Char, ¬ utf8 ch <+: c :: rest) :
    unquote (c :: rest) = replacementChar ++ unquote rest := by
  obtain ⟨h1, h2⟩ := width_invalid h
  rw [unquote.eq_def]
  dsimp only
  rw [if_neg (by omega), if_neg (by omega), h2]
  rfl

theorem unquote_pair {a b c d a2 b2 c2 d2 : UInt8} {rest : Bytes} (h1 : 0xD800 ≤ hex4 a b c d) (h2 : hex4 a b c d < 0xDC00)
    (h3 : 0xDC00 ≤ hex4 a2 b2 c2 d2) (h4 : hex4 a2 b2 c2 d2 < 0xE000) :
    unquote (92 :: 117 :: a :: b :: c :: d :: 92 :: 117 :: a2 :: b2 :: c2 :: d2 :: rest) =
      encodeRune (0x10000 + (hex4 a b c d - 0xD800) * 1024 + (hex4 a2 b2 c2 d2 - 0xDC00)) ++ unquote rest := by
  rw [unquote.eq_def]
  dsimp only
  have hs : isSurrogate (hex4 a b c d) = true := by unfold isSurrogate; simp; omega
  rw [if_pos (by decide), if_pos (by decide), if_pos hs, if_pos ⟨by decide, by decide, h2, h3, h4⟩]

theorem unquote_lone {a b c d : UInt8} {rest : Bytes} (h1 : 0xD800 ≤ hex4 a b c d) (h2 : hex4 a b c d < 0xE000)
    (h : hex4 a b c d < 0xDC00 → ∀ a2 b2 c2 d2 r3, rest = 92 :: 117 :: a2 :: b2 :: c2 :: d2 :: r3 →
      ¬ (0xDC00 ≤ hex4 a2 b2 c2 d2 ∧ hex4 a2 b2 c2 d2 < 0xE000)) :
    unquote (92 :: 117 :: a :: b :: c :: d :: rest) = replacementChar ++ unquote rest := by
  rw [unquote.eq_def]
  dsimp only
  have hs : isSurrogate (hex4 a b c d) = true := by unfold isSurrogate; simp; omega
  rw [if_pos (by decide), if_pos (by decide), if_pos hs]
  split
  · rename_i s u a2 b2 c2 d2 r3
    rw [if_neg]
    rintro ⟨hs, hu, h3, h4⟩
    have hs : s = 92 := UInt8.toNat_inj.mp hs
    have hu : u = 117 := UInt8.toNat_inj.mp hu
    subst hs hu
    exact h h3 a2 b2 c2 d2 r3 rfl h4
  · rfl

theorem isChars_high {r rest : Bytes} (h : ∀ c ∈ r, 0x80 ≤ c.toNat) (hr : IsChars rest) : IsChars (r ++ rest) := by
  induction r with
  | nil => exact hr
  | cons c r ih =>
    have hc := h c List.mem_cons_self
    refine .plain (by omega) ?_ ?_ (ih fun c hc => h c (List.mem_cons_of_mem _ hc))
    · rintro rfl; revert hc; decide
    · rintro rfl; revert hc; decide

theorem isChars_drop : ∀ {r rest : Bytes}, (∀ c ∈ r, 0x80 ≤ c.toNat) → IsChars (r ++ rest) → IsChars rest
  | [], _, _, h => h
  | c :: r, rest, hc, h => by
    have h0 := hc c List.mem_cons_self
    rw [List.cons_append] at h
    generalize ha : r ++ rest = x at h
    cases h with
    | plain h1 h2 h3 h4 =>
      subst ha
      exact isChars_drop (fun c h => hc c (List.mem_cons_of_mem _ h)) h4
    | esc h1 h2 => exact absurd h0 (by decide)
    | uni => exact absurd h0 (by decide)

theorem escapes_spec (x : Char × Char) (hx : x ∈ escapes) : ∃ c : UInt8, utf8 x.1 = [c] ∧ c ∈ ascii "bfnrt\\/\"" ∧
    c.toNat ≠ 117 ∧ utf8 x.2 = [escChar c] := by
  simp only [escapes, List.mem_cons, List.not_mem_nil, or_false] at hx
  rcases hx with rfl | rfl | rfl | rfl | rfl | rfl | rfl | rfl
  · exact ⟨98, by decide⟩
  · exact ⟨102, by decide⟩
  · exact ⟨110, by decide⟩
  · exact ⟨114, by decide⟩
  · exact ⟨116, by decide⟩
  · exact ⟨92, by decide⟩
  · exact ⟨47, by decide⟩
  · exact ⟨34, by decide⟩

theorem escapes_all (c : UInt8) (hc : c ∈ ascii "bfnrt\\/\"") : ∃ x ∈ escapes, utf8 x.1 = [c] := by
  have : ascii "bfnrt\\/\"" = [98, 102, 110, 114, 116, 92, 47, 34] := by decide
  rw [this] at hc
  simp only [List.mem_cons, List.not_mem_nil, or_false] at hc
  rcases hc with rfl | rfl | rfl | rfl | rfl | rfl | rfl | rfl
  · exact ⟨('b', Char.ofNat 8), by decide, by decide⟩
  · exact ⟨('f', Char.ofNat 12), by decide, by decide⟩
  · exact ⟨('n', '\n'), by decide, by decide⟩
  · exact ⟨('r', '\r'), by decide, by decide⟩
  · exact ⟨('t', '\t'), by decide, by decide⟩
  · exact ⟨('\\', '\\'), by decide, by decide⟩
  · exact ⟨('/', '/'), by decide, by decide⟩
  · exact ⟨('"', '"'), by decide, by decide⟩

theorem char_ne {ch ch' : Char} (h : ch ≠ ch') : ch.toNat ≠ ch'.toNat := fun e => h (Char.ext (UInt32.toNat_inj.mp e))

theorem stringIs_inv {raw : Bytes} {s : GoString} (h : StringIs raw s) : IsChars raw ∧ unquote raw = s := by
  induction h with
  | nil => exact ⟨.nil, by rw [unquote.eq_def]⟩
  | @char ch raw s h32 hq hb hs ih =>
    obtain ⟨ih1, ih2⟩ := ih
    have hq := char_ne hq
    have hb := char_ne hb
    have e34 : ('"' : Char).toNat = 34 := rfl
    have e92 : ('\\' : Char).toNat = 92 := rfl
    by_cases hc : ch.toNat < 0x80
    · obtain ⟨a, e, ha⟩ := utf8_ascii hc
      rw [e, List.singleton_append, List.singleton_append]
      refine ⟨.plain (by omega) ?_ ?_ ih1, ?_⟩
      · rintro rfl; exact hq (ha.symm.trans (by decide))
      · rintro rfl; exact hb (ha.symm.trans (by decide))
      · rw [unquote_plain _ (by omega) (by omega), ih2]
    · have hm := utf8_multi (ch := ch) (by omega)
      have hh := utf8_high (ch := ch) (by omega)
      exact ⟨isChars_high hh ih1, by rw [unquote_multi hm.1 hm.2 (utf8_width ch) hh, ih2]⟩
  | @invalid c raw s hi hs ih =>
    obtain ⟨h1, -⟩ := width_invalid hi
    refine ⟨?_, by rw [unquote_invalid hi, ih.2, replacement_eq]⟩
    exact isChars_high (r := [c]) (by simpa using h1) ih.1
  | @esc x raw s hx hs ih =>
    obtain ⟨c, e1, hc, h117, e2⟩ := escapes_spec x hx
    rw [e1, e2, show utf8 '\\' = [92] by decide]
    exact ⟨.esc hc ih.1, by rw [← ih.2]; exact unquote_esc raw h117⟩
  | @uni e ch raw s he hs ih =>
    obtain ⟨a, b, c, d, rfl, ha, hb, hc, hd, e4, -⟩ := unicodeEscape_inv he
    refine ⟨.uni ha hb hc hd ih.1, ?_⟩
    have hr := char_range ch
    refine (unquote_u raw ?_).trans ?_
    · rw [e4]; unfold isSurrogate; simp; omega
    · rw [e4, ih.2, encodeRune_eq]
  | @pair e e' ch raw s h16 he he' hs ih =>
    obtain ⟨a, b, c, d, rfl, ha, hb, hc, hd, e4, -⟩ := unicodeEscape_inv he
    obtain ⟨a2, b2, c2, d2, rfl, ha2, hb2, hc2, hd2, e42, -⟩ := unicodeEscape_inv he'
    refine ⟨.uni ha hb hc hd (.uni ha2 hb2 hc2 hd2 ih.1), ?_⟩
    have hr := char_range ch
    refine (unquote_pair (rest := raw) (by omega) (by omega) (by omega) (by omega)).trans ?_
    have hn : 0x10000 + (hex4 a b c d - 0xD800) * 1024 + (hex4 a2 b2 c2 d2 - 0xDC00) = ch.toNat := by omega
    rw [hn, ← encodeRune_eq, ih.2]
  | @lone e n raw s he h1 h2 h3 hs ih =>
    obtain ⟨a, b, c, d, rfl, ha, hb, hc, hd, e4, -⟩ := unicodeEscape_inv he
    refine ⟨.uni ha hb hc hd ih.1, ?_⟩
    subst e4
    refine (unquote_lone (rest := raw) h1 h2 ?_).trans (by rw [ih.2, replacement_eq])
    rintro h4 a2 b2 c2 d2 r3 rfl ⟨h5, h6⟩
    obtain ⟨ih1, -⟩ := ih
    cases ih1 with
    | plain h1 h2 h3 h4 => exact h3 rfl
    | esc h1 h2 => revert h1; decide
    | uni ha2 hb2 hc2 hd2 h =>
      exact h3 h4 _ _ (unicodeEscape_hex4 ha2 hb2 hc2 hd2) h5 h6 ⟨r3, rfl⟩

theorem stringIs_total (n : Nat) : ∀ {raw : Bytes}, raw.length ≤ n → IsChars raw → ∃ s, StringIs raw s := by
  induction n with
  | zero =>
    intro raw hl _
    obtain rfl := List.eq_nil_of_length_eq_zero (Nat.le_zero.mp hl)
    exact ⟨_, .nil⟩
  | succ n ih =>
    intro raw hl h
    cases h with
    | nil => exact ⟨_, .nil⟩
    | @plain c rest h32 h34 h92 hr =>
      have n34 : c.toNat ≠ 34 := fun h => h34 (UInt8.toNat_inj.mp h)
      have n92 : c.toNat ≠ 92 := fun h => h92 (UInt8.toNat_inj.mp h)
      rw [List.length_cons] at hl
      by_cases hi : ∀ ch : Char, ¬ utf8 ch <+: c :: rest
      · obtain ⟨s, hs⟩ := ih (by omega) hr
        exact ⟨_, .invalid hi hs⟩
      · obtain ⟨ch, hch⟩ := not_forall.mp hi
        obtain ⟨t, ht⟩ := not_not.mp hch
        have e34 : ('"' : Char).toNat = 34 := rfl
        have e92 : ('\\' : Char).toNat = 92 := rfl
        by_cases hc : ch.toNat < 0x80
        · obtain ⟨a, e, ha⟩ := utf8_ascii hc
          rw [e, List.singleton_append, List.cons.injEq] at ht
          obtain ⟨rfl, rfl⟩ := ht
          obtain ⟨s, hs⟩ := ih (by omega) hr
          have := StringIs.char (ch := ch) (by omega) (by rintro rfl; omega) (by rintro rfl; omega) hs
          rw [e] at this
          exact ⟨_, this⟩
        · have hm := utf8_multi (ch := ch) (by omega)
          have hh := utf8_high (ch := ch) (by omega)
          have hct : IsChars t := isChars_drop hh (by rw [ht]; exact .plain h32 h34 h92 hr)
          have hlen := congrArg List.length ht
          rw [List.length_append, List.length_cons] at hlen
          obtain ⟨s, hs⟩ := ih (by omega) hct
          rw [← ht]
          exact ⟨_, .char (by omega) (by rintro rfl; omega) (by rintro rfl; omega) hs⟩
    | @esc c rest hc hr =>
      simp only [List.length_cons] at hl
      obtain ⟨s, hs⟩ := ih (by omega) hr
      obtain ⟨x, hx, e⟩ := escapes_all c hc
      have := StringIs.esc hx hs
      rw [e, show utf8 '\\' = [92] by decide] at this
      exact ⟨_, this⟩
    | @uni a b c d rest ha hb hc hd hr =>
      simp only [List.length_cons] at hl
      have he := unicodeEscape_hex4 ha hb hc hd
      obtain ⟨-, -, -, -, -, -, -, -, -, -, hlt⟩ := unicodeEscape_inv he
      by_cases hsur : 0xD800 ≤ hex4 a b c d ∧ hex4 a b c d < 0xE000
      · by_cases hp : hex4 a b c d < 0xDC00 → ∀ e' lo, UnicodeEscape e' lo → 0xDC00 ≤ lo → lo < 0xE000 → ¬ e' <+: rest
        · obtain ⟨s, hs⟩ := ih (by omega) hr
          exact ⟨_, .lone he hsur.1 hsur.2 hp hs⟩
        · simp only [not_forall, not_not] at hp
          obtain ⟨h1, e', lo, he', h2, h3, t, rfl⟩ := hp
          obtain ⟨a2, b2, c2, d2, rfl, -⟩ := unicodeEscape_inv he'
          have ht : IsChars t := by
            rw [show [92, 117, a2, b2, c2, d2] ++ t = 92 :: 117 :: a2 :: b2 :: c2 :: d2 :: t from rfl] at hr
            cases hr with
            | plain h1 h2 h3 h4 => exact absurd rfl h3
            | esc h1 h2 => exact absurd h1 (by decide)
            | uni _ _ _ _ h => exact h
          simp only [List.length_append, List.length_cons] at hl
          obtain ⟨s, hs⟩ := ih (by omega) ht
          obtain ⟨ch, hch⟩ := charOf (n := 0x10000 + (hex4 a b c d - 0xD800) * 1024 + (lo - 0xDC00)) (by omega)
          refine ⟨_, StringIs.pair (ch := ch) (e := [92, 117, a, b, c, d]) (e' := [92, 117, a2, b2, c2, d2]) (by omega) ?_ ?_ hs⟩
          · rw [show 0xD800 + (ch.toNat - 0x10000) / 0x400 = hex4 a b c d by omega]; exact he
          · rw [show 0xDC00 + (ch.toNat - 0x10000) % 0x400 = lo by omega]; exact he'
      · obtain ⟨s, hs⟩ := ih (by omega) hr
        obtain ⟨ch, hch⟩ := charOf (n := hex4 a b c d) (by omega)
        exact ⟨_, StringIs.uni (ch := ch) (e := [92, 117, a, b, c, d]) (by rw [hch]; exact he) hs⟩

theorem stringIs_unquote {raw : Bytes} (h : IsChars raw) : StringIs raw (unquote raw) := by
  obtain ⟨s, hs⟩ := stringIs_total _ (Nat.le_refl _) h
  rw [(stringIs_inv hs).2]
  exact hs

/-! ### Replacing what is not UTF-8 -/

theorem toValid_char (ch : Char) (s : Bytes) : toValidUTF8 (utf8 ch ++ s) = utf8 ch ++ toValidUTF8 s := by
  have hne : utf8 ch ++ s ≠ [] := by
    have := utf8_width ch s
    intro h
    rcases utf8_cases ch with ⟨h, a, e, ha⟩ | ⟨h, a, b, e, hb⟩ | ⟨h, a, b, c, e, hb⟩ | ⟨h, a, b, c, d, e, hb⟩ <;> simp_all
  unfold toValidUTF8
  rw [runes_cons _ hne, utf8_width, List.flatMap_cons, List.take_left, List.drop_left]
  congr 1
  unfold coerceRune
  rcases utf8_cases ch with ⟨h, a, e, ha⟩ | ⟨h, a, b, e, hb⟩ | ⟨h, a, b, c, e, hb⟩ | ⟨h, a, b, c, d, e, hb⟩ <;> rw [e]
  dsimp only
  rw [if_pos (by omega)]

theorem toValid_invalid {c : UInt8} {s : Bytes} (h : ∀ ch : Char, ¬ utf8 ch <+: c :: s) :
    toValidUTF8 (c :: s) = replacementChar ++ toValidUTF8 s := by
  obtain ⟨h1, h2⟩ := width_invalid h
  unfold toValidUTF8
  rw [runes_cons _ (by simp), h2, List.flatMap_cons]
  congr 1
  unfold coerceRune
  simp only [List.take_succ_cons, List.take_zero]
  rw [if_neg (by omega)]

theorem replaced_inv {s t : Bytes} (h : Replaced s t) : toValidUTF8 s = t := by
  induction h with
  | nil => rfl
  | char ch _ ih => rw [toValid_char, ih]
  | invalid hi _ ih => rw [toValid_invalid hi, ih]; rfl

theorem replaced_total (n : Nat) : ∀ {s : Bytes}, s.length ≤ n → ∃ t, Replaced s t := by
  induction n with
  | zero =>
    intro s hl
    obtain rfl := List.eq_nil_of_length_eq_zero (Nat.le_zero.mp hl)
    exact ⟨_, .nil⟩
  | succ n ih =>
    intro s hl
    rcases s with - | ⟨c, s⟩
    · exact ⟨_, .nil⟩
    rw [List.length_cons] at hl
    by_cases hi : ∀ ch : Char, ¬ utf8 ch <+: c :: s
    · obtain ⟨t, ht⟩ := ih (s := s) (by omega)
      exact ⟨_, .invalid hi ht⟩
    · obtain ⟨ch, hch⟩ := not_forall.mp hi
      obtain ⟨t, ht⟩ := not_not.mp hch
      have hlen := congrArg List.length ht
      rw [List.length_append, List.length_cons] at hlen
      have hpos : 1 ≤ (utf8 ch).length := by
        rcases utf8_cases ch with ⟨h, a, e, ha⟩ | ⟨h, a, b, e, hb⟩ | ⟨h, a, b, c, e, hb⟩ | ⟨h, a, b, c, d, e, hb⟩ <;> rw [e] <;> simp
      obtain ⟨t', ht'⟩ := ih (s := t) (by omega)
      rw [← ht]
      exact ⟨_, .char ch ht'⟩

theorem replaced_iff (s t : Bytes) : Replaced s t ↔ toValidUTF8 s = t := by
  refine ⟨replaced_inv, fun h => ?_⟩
  obtain ⟨t', ht⟩ := replaced_total _ (Nat.le_refl s.length)
  rw [← h, replaced_inv ht]
  exact ht

theorem replaced_length {s t : Bytes} (h : Replaced s t) : s.length ≤ t.length ∧ (s.length = t.length → IsUtf8 s) := by
  induction h with
  | nil => exact ⟨Nat.le_refl _, fun _ => ⟨[], rfl⟩⟩
  | char ch _ ih =>
    simp only [List.length_append]
    refine ⟨by omega, fun h => ?_⟩
    obtain ⟨chars, e⟩ := ih.2 (by omega)
    exact ⟨ch :: chars, by rw [e, List.flatMap_cons]⟩
  | invalid hi _ ih =>
    have : (utf8 (Char.ofNat 0xFFFD)).length = 3 := by decide
    simp only [List.length_append, List.length_cons, this]
    exact ⟨by omega, fun h => by omega⟩

theorem isUtf8_iff (s : Bytes) : IsUtf8 s ↔ validUTF8 s = true := by
  rw [← toValidUTF8_eq_iff]
  constructor
  · rintro ⟨chars, rfl⟩
    induction chars with
    | nil => rfl
    | cons ch chars ih => rw [List.flatMap_cons, toValid_char, ih]
  · intro h
    have := replaced_length ((replaced_iff s s).mpr h)
    exact this.2 rfl

end Migp.Json
