import Verif.Lemmas.Base64
/-!
# The JSON scanner on the text the encoder writes
-/
namespace Migp.Json

/-! ## Strings -/

/-- Inside a string, the scanner passes over `b` and stays inside. -/
def Stays (b : Bytes) : Prop := ∀ (stack : List Frame) (k : Bool) (raw : Bytes),
  b.foldl step ⟨stack, .str k raw 0⟩ = ⟨stack, .str k (b.reverse ++ raw) 0⟩

theorem Stays.nil : Stays [] := fun _ _ _ => rfl

theorem Stays.append {a b : Bytes} (ha : Stays a) (hb : Stays b) : Stays (a ++ b) := by
  intro stack k raw
  rw [List.foldl_append, ha, hb, List.reverse_append, List.append_assoc]

theorem Stays.flatMap {α : Type} {f : α → Bytes} {l : List α} (h : ∀ x ∈ l, Stays (f x)) :
    Stays (l.flatMap f) := by
  induction l with
  | nil => exact Stays.nil
  | cons x xs ih =>
    rw [List.flatMap_cons]
    exact (h x List.mem_cons_self).append (ih (fun y hy => h y (List.mem_cons_of_mem _ hy)))

theorem Stays.plain {c : UInt8} (h1 : 32 ≤ c.toNat) (h2 : c.toNat ≠ 34) (h3 : c.toNat ≠ 92) :
    Stays [c] := by
  intro stack k raw
  simp only [List.foldl, step, inString]
  rw [if_pos trivial, if_neg h2, if_neg h3, if_neg (by omega)]
  rfl

theorem Stays.plains {b : Bytes} (h : ∀ c ∈ b, 32 ≤ c.toNat ∧ c.toNat ≠ 34 ∧ c.toNat ≠ 92) : Stays b := by
  induction b with
  | nil => exact Stays.nil
  | cons c cs ih =>
    obtain ⟨h1, h2, h3⟩ := h c List.mem_cons_self
    exact (Stays.plain h1 h2 h3).append (ih (fun c hc => h c (List.mem_cons_of_mem _ hc)))

/-- A two-character escape. -/
theorem Stays.esc {e : UInt8} (h : e.toNat = 98 ∨ e.toNat = 102 ∨ e.toNat = 110 ∨ e.toNat = 114 ∨
    e.toNat = 116 ∨ e.toNat = 92 ∨ e.toNat = 47 ∨ e.toNat = 34) : Stays [92, e] := by
  intro stack k raw
  have h0 : step ⟨stack, .str k raw 0⟩ 92 = ⟨stack, .str k (92 :: raw) 1⟩ := rfl
  simp only [List.foldl]
  rw [h0]
  simp only [step, inString]
  rw [if_neg (by decide), if_pos trivial, if_pos h]
  rfl

/-- `\uXXXX` -/
theorem Stays.u {a b c d : UInt8} (ha : (fromHexChar a).isSome = true) (hb : (fromHexChar b).isSome = true)
    (hc : (fromHexChar c).isSome = true) (hd : (fromHexChar d).isSome = true) :
    Stays [92, 117, a, b, c, d] := by
  intro stack k raw
  have h0 : step ⟨stack, .str k raw 0⟩ 92 = ⟨stack, .str k (92 :: raw) 1⟩ := rfl
  have h1 : ∀ raw, step ⟨stack, .str k raw 1⟩ 117 = ⟨stack, .str k (117 :: raw) 2⟩ := fun _ => rfl
  have hx : ∀ x raw n, (fromHexChar x).isSome = true →
      step ⟨stack, .str k raw (n + 2)⟩ x = ⟨stack, .str k (x :: raw) (if n + 2 = 5 then 0 else n + 2 + 1)⟩ := by
    intro x raw n h
    simp only [step, inString]
    rw [if_neg (by omega), if_neg (by omega), if_pos h]
  simp only [List.foldl]
  rw [h0, h1, hx a _ 0 ha]
  have := hx b (a :: 117 :: 92 :: raw) 1 hb
  simp only [Nat.reduceAdd, Nat.reduceEqDiff, if_false] at this ⊢
  rw [this]
  have := hx c (b :: a :: 117 :: 92 :: raw) 2 hc
  simp only [Nat.reduceAdd, Nat.reduceEqDiff, if_false] at this ⊢
  rw [this]
  have := hx d (c :: b :: a :: 117 :: 92 :: raw) 3 hd
  simp only [Nat.reduceAdd, if_true] at this ⊢
  rw [this]
  rfl

/-! ## Pieces of a string -/

/-- What `runes` cuts a string into. -/
def Piece (r : Bytes) : Prop := (∃ b, r = [b]) ∨ (2 ≤ r.length ∧ r.length ≤ 4 ∧
  (∀ t, runeWidth (r ++ t) = r.length) ∧ ∀ c ∈ r, 0x80 ≤ c.toNat)

theorem inRange_iff {lo hi : Nat} {o : Option UInt8} : inRange lo hi o = true ↔
    ∃ x, o = some x ∧ lo ≤ x.toNat ∧ x.toNat ≤ hi := by
  cases o <;> simp [inRange]

theorem runeWidth_piece (s : Bytes) (hs : s ≠ []) : Piece (s.take (runeWidth s)) ∧
    1 ≤ runeWidth s ∧ (s.take (runeWidth s)).length = runeWidth s := by
  cases s with
  | nil => exact absurd rfl hs
  | cons b rest =>
    have two : ∀ c, rest[0]? = some c → ∃ r, rest = c :: r := by
      intro c h; cases rest <;> simp_all
    have three : ∀ c d, rest[0]? = some c → rest[1]? = some d → ∃ r, rest = c :: d :: r := by
      intro c d h h'; rcases rest with - | ⟨x, - | ⟨y, r⟩⟩ <;> simp_all
    have four : ∀ c d e, rest[0]? = some c → rest[1]? = some d → rest[2]? = some e →
        ∃ r, rest = c :: d :: e :: r := by
      intro c d e h h' h''; rcases rest with - | ⟨x, - | ⟨y, - | ⟨z, r⟩⟩⟩ <;> simp_all
    have one : runeWidth (b :: rest) = 1 → Piece ((b :: rest).take (runeWidth (b :: rest))) ∧
        1 ≤ runeWidth (b :: rest) ∧
        ((b :: rest).take (runeWidth (b :: rest))).length = runeWidth (b :: rest) := by
      intro h; rw [h]; exact ⟨.inl ⟨b, rfl⟩, Nat.le_refl _, rfl⟩
    by_cases h1 : runeWidth (b :: rest) = 1
    · exact one h1
    · clear one
      have key : ∀ w, runeWidth (b :: rest) = w → w ≠ 1 →
          (w = 2 ∧ ∃ c r, rest = c :: r ∧ 0x80 ≤ b.toNat ∧ 0x80 ≤ c.toNat ∧
            ∀ t, runeWidth (b :: c :: t) = 2) ∨
          (w = 3 ∧ ∃ c d r, rest = c :: d :: r ∧ 0x80 ≤ b.toNat ∧ 0x80 ≤ c.toNat ∧ 0x80 ≤ d.toNat ∧
            ∀ t, runeWidth (b :: c :: d :: t) = 3) ∨
          (w = 4 ∧ ∃ c d e r, rest = c :: d :: e :: r ∧ 0x80 ≤ b.toNat ∧ 0x80 ≤ c.toNat ∧
            0x80 ≤ d.toNat ∧ 0x80 ≤ e.toNat ∧ ∀ t, runeWidth (b :: c :: d :: e :: t) = 4) := by
        intro w hw hw1
        have hw' := hw
        unfold runeWidth at hw
        dsimp only at hw
        split at hw
        · omega
        split at hw
        · split at hw
          · rename_i hb hr
            obtain ⟨c, e, hc⟩ := inRange_iff.mp hr
            obtain ⟨r, rfl⟩ := two c e
            refine .inl ⟨hw.symm, c, r, rfl, by omega, by omega, fun t => ?_⟩
            clear hw hw' h1 two three four hs
            simp only [List.getElem?_cons_zero] at hr
            unfold runeWidth
            dsimp only
            simp only [List.getElem?_cons_zero, List.getElem?_cons_succ, *,
              if_true, if_false]
          · omega
        split at hw
        · split at hw
          · rename_i hb hr
            rw [Bool.and_eq_true] at hr
            obtain ⟨c, e, hc⟩ := inRange_iff.mp hr.1
            obtain ⟨d, e', hd⟩ := inRange_iff.mp hr.2
            obtain ⟨r, rfl⟩ := three c d e e'
            refine .inr (.inl ⟨hw.symm, c, d, r, rfl, by omega, by omega, by omega, fun t => ?_⟩)
            clear hw hw' h1 two three four hs
            simp only [List.getElem?_cons_zero, List.getElem?_cons_succ] at hr
            unfold runeWidth
            dsimp only
            simp only [List.getElem?_cons_zero, List.getElem?_cons_succ, *, Bool.and_self, Bool.false_eq_true,
              if_true, if_false]
          · omega
        split at hw
        · split at hw
          · rename_i hb hr
            rw [Bool.and_eq_true] at hr
            obtain ⟨c, e, hc⟩ := inRange_iff.mp hr.1
            obtain ⟨d, e', hd⟩ := inRange_iff.mp hr.2
            obtain ⟨r, rfl⟩ := three c d e e'
            refine .inr (.inl ⟨hw.symm, c, d, r, rfl, by omega, by omega, by omega, fun t => ?_⟩)
            clear hw hw' h1 two three four hs
            simp only [List.getElem?_cons_zero, List.getElem?_cons_succ] at hr
            unfold runeWidth
            dsimp only
            simp only [List.getElem?_cons_zero, List.getElem?_cons_succ, *, Bool.and_self, Bool.false_eq_true,
              if_true, if_false]
          · omega
        split at hw
        · split at hw
          · rename_i hb hr
            rw [Bool.and_eq_true] at hr
            obtain ⟨c, e, hc⟩ := inRange_iff.mp hr.1
            obtain ⟨d, e', hd⟩ := inRange_iff.mp hr.2
            obtain ⟨r, rfl⟩ := three c d e e'
            refine .inr (.inl ⟨hw.symm, c, d, r, rfl, by omega, by omega, by omega, fun t => ?_⟩)
            clear hw hw' h1 two three four hs
            simp only [List.getElem?_cons_zero, List.getElem?_cons_succ] at hr
            unfold runeWidth
            dsimp only
            simp only [List.getElem?_cons_zero, List.getElem?_cons_succ, *, Bool.and_self, Bool.false_eq_true,
              if_true, if_false]
          · omega
        split at hw
        · split at hw
          · rename_i hb hr
            rw [Bool.and_eq_true, Bool.and_eq_true] at hr
            obtain ⟨c, e, hc⟩ := inRange_iff.mp hr.1.1
            obtain ⟨d, e', hd⟩ := inRange_iff.mp hr.1.2
            obtain ⟨x, e'', hx⟩ := inRange_iff.mp hr.2
            obtain ⟨r, rfl⟩ := four c d x e e' e''
            refine .inr (.inr ⟨hw.symm, c, d, x, r, rfl, by omega, by omega, by omega, by omega,
              fun t => ?_⟩)
            clear hw hw' h1 two three four hs
            simp only [List.getElem?_cons_zero, List.getElem?_cons_succ] at hr
            unfold runeWidth
            dsimp only
            simp only [List.getElem?_cons_zero, List.getElem?_cons_succ, *, Bool.and_self, Bool.false_eq_true,
              if_true, if_false]
          · omega
        split at hw
        · split at hw
          · rename_i hb hr
            rw [Bool.and_eq_true, Bool.and_eq_true] at hr
            obtain ⟨c, e, hc⟩ := inRange_iff.mp hr.1.1
            obtain ⟨d, e', hd⟩ := inRange_iff.mp hr.1.2
            obtain ⟨x, e'', hx⟩ := inRange_iff.mp hr.2
            obtain ⟨r, rfl⟩ := four c d x e e' e''
            refine .inr (.inr ⟨hw.symm, c, d, x, r, rfl, by omega, by omega, by omega, by omega,
              fun t => ?_⟩)
            clear hw hw' h1 two three four hs
            simp only [List.getElem?_cons_zero, List.getElem?_cons_succ] at hr
            unfold runeWidth
            dsimp only
            simp only [List.getElem?_cons_zero, List.getElem?_cons_succ, *, Bool.and_self, Bool.false_eq_true,
              if_true, if_false]
          · omega
        split at hw
        · split at hw
          · rename_i hb hr
            rw [Bool.and_eq_true, Bool.and_eq_true] at hr
            obtain ⟨c, e, hc⟩ := inRange_iff.mp hr.1.1
            obtain ⟨d, e', hd⟩ := inRange_iff.mp hr.1.2
            obtain ⟨x, e'', hx⟩ := inRange_iff.mp hr.2
            obtain ⟨r, rfl⟩ := four c d x e e' e''
            refine .inr (.inr ⟨hw.symm, c, d, x, r, rfl, by omega, by omega, by omega, by omega,
              fun t => ?_⟩)
            clear hw hw' h1 two three four hs
            simp only [List.getElem?_cons_zero, List.getElem?_cons_succ] at hr
            unfold runeWidth
            dsimp only
            simp only [List.getElem?_cons_zero, List.getElem?_cons_succ, *, Bool.and_self, Bool.false_eq_true,
              if_true, if_false]
          · omega
        · omega
      rcases key _ rfl h1 with ⟨h, c, r, rfl, hb, hc, ht⟩ | ⟨h, c, d, r, rfl, hb, hc, hd, ht⟩ |
        ⟨h, c, d, e, r, rfl, hb, hc, hd, he, ht⟩
      · rw [h]
        refine ⟨.inr ⟨Nat.le_refl _, by simp, ht, ?_⟩, by decide, rfl⟩
        intro x hx
        simp only [List.take, List.mem_cons, List.not_mem_nil, or_false] at hx
        rcases hx with rfl | rfl <;> assumption
      · rw [h]
        refine ⟨.inr ⟨by simp, by simp, ht, ?_⟩, by decide, rfl⟩
        intro x hx
        simp only [List.take, List.mem_cons, List.not_mem_nil, or_false] at hx
        rcases hx with rfl | rfl | rfl <;> assumption
      · rw [h]
        refine ⟨.inr ⟨by simp, by simp, ht, ?_⟩, by decide, rfl⟩
        intro x hx
        simp only [List.take, List.mem_cons, List.not_mem_nil, or_false] at hx
        rcases hx with rfl | rfl | rfl | rfl <;> assumption

theorem runesFrom_skip (n : Nat) (s : Bytes) : runesFrom n s = runesFrom 0 (s.drop n) := by
  induction s generalizing n with
  | nil => cases n <;> rfl
  | cons b bs ih =>
    cases n with
    | zero => rfl
    | succ n => rw [List.drop_succ_cons]; exact ih n

theorem runes_cons (s : Bytes) (hs : s ≠ []) :
    runes s = s.take (runeWidth s) :: runes (s.drop (runeWidth s)) := by
  cases s with
  | nil => exact absurd rfl hs
  | cons b bs =>
    have := (runeWidth_piece (b :: bs) hs).2.1
    unfold runes
    rw [runesFrom, runesFrom_skip]
    congr 2
    obtain ⟨w, hw⟩ : ∃ w, runeWidth (b :: bs) = w + 1 := ⟨runeWidth (b :: bs) - 1, by omega⟩
    rw [hw]; rfl

/-- The pieces make up the string. -/
theorem runes_spec (s : Bytes) : (runes s).flatten = s ∧ ∀ r ∈ runes s, Piece r := by
  induction hn : s.length using Nat.strongRecOn generalizing s with
  | _ n ih =>
    by_cases hs : s = []
    · subst hs; exact ⟨rfl, by simp [runes, runesFrom]⟩
    · obtain ⟨h1, h2, h3⟩ := runeWidth_piece s hs
      have hlen : 0 < s.length := List.length_pos_iff.mpr hs
      obtain ⟨i1, i2⟩ := ih (s.drop (runeWidth s)).length (by rw [List.length_drop]; omega) _ rfl
      rw [runes_cons s hs]
      refine ⟨?_, ?_⟩
      · rw [List.flatten_cons, i1, List.take_append_drop]
      · intro r hr
        rcases List.mem_cons.mp hr with rfl | hr
        · exact h1
        · exact i2 r hr

theorem hexDigit_isSome : ∀ n, n < 16 → (fromHexChar (hexDigit n)).isSome = true ∧
    fromHexChar (hexDigit n) = some n := by decide

theorem quoteRune_multi {r : Bytes} (h : 2 ≤ r.length) :
    quoteRune r = ascii "\\u2028" ∧ r = [0xE2, 0x80, 0xA8] ∨
    quoteRune r = ascii "\\u2029" ∧ r = [0xE2, 0x80, 0xA9] ∨ quoteRune r = r := by
  unfold quoteRune
  split
  · simp at h
  · exact .inl ⟨rfl, rfl⟩
  · exact .inr (.inl ⟨rfl, rfl⟩)
  · exact .inr (.inr rfl)

theorem quoteRune_single (b : UInt8) : ∀ r, quoteRune [b] = r →
    (b.toNat < 0x80 ∧ (r = [92, b] ∧ (b.toNat = 34 ∨ b.toNat = 92) ∨ r = [92, 110] ∧ b.toNat = 10 ∨
      r = [92, 114] ∧ b.toNat = 13 ∨ r = [92, 116] ∧ b.toNat = 9 ∨
      r = [92, 117, 48, 48, hexDigit (b.toNat / 16), hexDigit (b.toNat % 16)] ∨
      r = [b] ∧ 32 ≤ b.toNat ∧ b.toNat ≠ 34 ∧ b.toNat ≠ 92)) ∨
    (0x80 ≤ b.toNat ∧ r = ascii "\\ufffd") := by
  rintro r rfl
  unfold quoteRune
  dsimp only
  split
  · rename_i h
    refine .inl ⟨h, ?_⟩
    split
    · exact .inl ⟨rfl, by assumption⟩
    split
    · exact .inr (.inl ⟨rfl, by assumption⟩)
    split
    · exact .inr (.inr (.inl ⟨rfl, by assumption⟩))
    split
    · exact .inr (.inr (.inr (.inl ⟨rfl, by assumption⟩)))
    split
    · exact .inr (.inr (.inr (.inr (.inl rfl))))
    · exact .inr (.inr (.inr (.inr (.inr ⟨rfl, by omega, by omega, by omega⟩))))
  · exact .inr ⟨by omega, rfl⟩

theorem stays_quoteRune {r : Bytes} (h : Piece r) : Stays (quoteRune r) := by
  rcases h with ⟨b, rfl⟩ | ⟨h2, h4, hw, hc⟩
  · rcases quoteRune_single b _ rfl with ⟨hb, h | h | h | h | h | h⟩ | ⟨hb, h⟩
    · rw [h.1]; exact Stays.esc (by omega)
    · rw [h.1]; exact Stays.esc (by decide)
    · rw [h.1]; exact Stays.esc (by decide)
    · rw [h.1]; exact Stays.esc (by decide)
    · rw [h]; exact Stays.u (by decide) (by decide) (hexDigit_isSome _ (by omega)).1
        (hexDigit_isSome _ (by omega)).1
    · rw [h.1]; exact Stays.plain h.2.1 h.2.2.1 h.2.2.2
    · rw [h]; exact Stays.u (a := 102) (b := 102) (c := 102) (d := 100) (by decide) (by decide) (by decide)
        (by decide)
  · rcases quoteRune_multi h2 with ⟨h, -⟩ | ⟨h, -⟩ | h
    · rw [h]; exact Stays.u (a := 50) (b := 48) (c := 50) (d := 56) (by decide) (by decide) (by decide)
        (by decide)
    · rw [h]; exact Stays.u (a := 50) (b := 48) (c := 50) (d := 57) (by decide) (by decide) (by decide)
        (by decide)
    · rw [h]; exact Stays.plains (fun c hr => by have := hc c hr; omega)

/-! ## Unquoting what was quoted -/

theorem unquote_plain {c : UInt8} (rest : Bytes) (h1 : c.toNat < 128) (h2 : c.toNat ≠ 92) :
    unquote (c :: rest) = c :: unquote rest := by
  rw [unquote.eq_def]
  dsimp only
  rw [if_neg h2, if_pos h1]

theorem unquote_plains {b : Bytes} (h : ∀ c ∈ b, c.toNat < 128 ∧ c.toNat ≠ 92) : unquote b = b := by
  induction b with
  | nil => rfl
  | cons c cs ih =>
    obtain ⟨h1, h2⟩ := h c List.mem_cons_self
    rw [unquote_plain _ h1 h2, ih (fun c hc => h c (List.mem_cons_of_mem _ hc))]

theorem unquote_esc {e : UInt8} (rest : Bytes) (h : e.toNat ≠ 117) :
    unquote (92 :: e :: rest) = escChar e :: unquote rest := by
  rw [unquote.eq_def]
  dsimp only
  rw [if_pos (by decide)]
  rw [if_neg h]

theorem unquote_u {a b c d : UInt8} (rest : Bytes) (h : isSurrogate (hex4 a b c d) = false) :
    unquote (92 :: 117 :: a :: b :: c :: d :: rest) = encodeRune (hex4 a b c d) ++ unquote rest := by
  rw [unquote.eq_def]
  dsimp only
  rw [if_pos (by decide)]
  rw [if_pos (by decide), h]
  rfl

theorem unquote_quoteRune {r : Bytes} (h : Piece r) (t : Bytes) :
    unquote (quoteRune r ++ t) = coerceRune r ++ unquote t := by
  rcases h with ⟨b, rfl⟩ | ⟨h2, h4, hw, hc⟩
  · have eqb : ∀ n, b.toNat = n → b = UInt8.ofNat n := by rintro n rfl; simp
    rcases quoteRune_single b _ rfl with ⟨hb, h⟩ | ⟨hb, h⟩
    · have hco : coerceRune [b] = [b] := if_pos hb
      rw [hco]
      rcases h with h | h | h | h | h | h
      · rw [h.1]
        refine (unquote_esc t (by omega)).trans ?_
        rcases h.2 with h | h <;> rw [eqb _ h] <;> rfl
      · rw [h.1, eqb _ h.2]; exact unquote_esc t (by decide)
      · rw [h.1, eqb _ h.2]; exact unquote_esc t (by decide)
      · rw [h.1, eqb _ h.2]; exact unquote_esc t (by decide)
      · rw [h]
        have e1 := (hexDigit_isSome (b.toNat / 16) (by omega)).2
        have e2 := (hexDigit_isSome (b.toNat % 16) (by omega)).2
        have e : hex4 48 48 (hexDigit (b.toNat / 16)) (hexDigit (b.toNat % 16)) = b.toNat := by
          unfold hex4
          rw [e1, e2, show fromHexChar 48 = some 0 by decide]
          simp only [Option.getD_some]
          omega
        refine (unquote_u t ?_).trans ?_
        · rw [e]; unfold isSurrogate; simp; omega
        · rw [e]; unfold encodeRune; rw [if_pos hb]; simp
      · rw [h.1]
        exact unquote_plain t hb h.2.2.2
    · rw [h]
      have : coerceRune [b] = replacementChar := if_neg (by omega)
      rw [this]
      exact unquote_u t (by decide)
  · have hco : coerceRune r = r := by
      unfold coerceRune
      split
      · simp at h2
      · rfl
    rw [hco]
    rcases quoteRune_multi h2 with ⟨h, e⟩ | ⟨h, e⟩ | h
    · rw [h, e]; exact unquote_u t (by decide)
    · rw [h, e]; exact unquote_u t (by decide)
    · rw [h]
      have hwt := hw t
      rcases r with - | ⟨a, - | ⟨b, - | ⟨c, - | ⟨d, - | ⟨e, r⟩⟩⟩⟩⟩
      · simp at h2
      · simp at h2
      · have := hc a (by simp)
        simp only [List.cons_append, List.nil_append] at hwt ⊢
        rw [unquote.eq_def]
        dsimp only
        rw [if_neg (by omega), if_neg (by omega), hwt]
        rfl
      · have := hc a (by simp)
        simp only [List.cons_append, List.nil_append] at hwt ⊢
        rw [unquote.eq_def]
        dsimp only
        rw [if_neg (by omega), if_neg (by omega), hwt]
        rfl
      · have := hc a (by simp)
        simp only [List.cons_append, List.nil_append] at hwt ⊢
        rw [unquote.eq_def]
        dsimp only
        rw [if_neg (by omega), if_neg (by omega), hwt]
        rfl
      · simp at h4

/-- Quoting and unquoting a string replaces exactly what is not UTF-8. -/
theorem unquote_quote (s : GoString) : unquote ((runes s).flatMap quoteRune) = toValidUTF8 s := by
  unfold toValidUTF8
  have := (runes_spec s).2
  generalize runes s = l at this
  induction l with
  | nil => rfl
  | cons r rs ih =>
    rw [List.flatMap_cons, List.flatMap_cons, unquote_quoteRune (this r List.mem_cons_self),
      ih (fun r hr => this r (List.mem_cons_of_mem _ hr))]

/-- `toValidUTF8` leaves a string alone iff it is valid UTF-8. -/
theorem toValidUTF8_eq_iff (s : GoString) : toValidUTF8 s = s ↔ validUTF8 s = true := by
  have h1 := (runes_spec s).1
  have key : ∀ l : List Bytes, (∀ r ∈ l, Piece r) → (l.flatMap coerceRune = l.flatten ↔
      l.all (fun r => match r with | [b] => b.toNat < 0x80 | _ => true) = true) := by
    intro l
    have len : ∀ l : List Bytes, (l.flatten).length ≤ (l.flatMap coerceRune).length := by
      intro l
      induction l with
      | nil => simp
      | cons r rs ih =>
        rw [List.flatMap_cons, List.flatten_cons, List.length_append, List.length_append]
        have : r.length ≤ (coerceRune r).length := by
          unfold coerceRune
          split
          · split <;> simp [replacementChar]
          · exact Nat.le_refl _
        omega
    induction l with
    | nil => intro _; simp
    | cons r rs ih =>
      intro hp
      have ih' := ih (fun r hr => hp r (List.mem_cons_of_mem _ hr))
      rw [List.flatMap_cons, List.flatten_cons, List.all_cons, Bool.and_eq_true, ← ih']
      rcases hp r List.mem_cons_self with ⟨b, rfl⟩ | ⟨h2, -⟩
      · simp only [coerceRune]
        by_cases hb : b.toNat < 0x80
        · rw [if_pos hb]
          simp [hb]
        · rw [if_neg hb]
          constructor
          · intro h
            have := congrArg List.length h
            rw [List.length_append, List.length_append] at this
            have := len rs
            simp [replacementChar] at *
            omega
          · intro h; exact absurd (of_decide_eq_true h.1) hb
      · have hco : coerceRune r = r := by
          unfold coerceRune
          split
          · simp at h2
          · rfl
        rw [hco, List.append_cancel_left_eq]
        constructor
        · intro h
          refine ⟨?_, h⟩
          split
          · simp at h2
          · rfl
        · exact fun h => h.2
  unfold toValidUTF8 validUTF8
  have := key _ (runes_spec s).2
  rwa [h1] at this

end Migp.Json
