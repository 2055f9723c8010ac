import Verif.Spec.CommandLine
import Mathlib.Data.List.TakeWhile
/-!
# Lemmas about `strconv` and `flag`
-/
namespace Migp
open Spec

/-! ## Digits -/

theorem digitValue_table : ∀ n < 256, (digitValue (UInt8.ofNat n)).all (fun d => decide (n ≠ 95 ∧
    ((48 ≤ n ∧ n ≤ 57 ∧ d.toNat + 48 = n) ∨ (97 ≤ n ∧ n ≤ 122 ∧ d.toNat + 87 = n) ∨
      (65 ≤ n ∧ n ≤ 90 ∧ d.toNat + 55 = n)))) = true := by
  decide +kernel

theorem digitValue_range {c d : UInt8} (h : digitValue c = some d) : c.toNat ≠ 95 ∧
    ((48 ≤ c.toNat ∧ c.toNat ≤ 57 ∧ d.toNat + 48 = c.toNat) ∨ (97 ≤ c.toNat ∧ c.toNat ≤ 122 ∧ d.toNat + 87 = c.toNat) ∨
      (65 ≤ c.toNat ∧ c.toNat ≤ 90 ∧ d.toNat + 55 = c.toNat)) := by
  have := digitValue_table c.toNat c.toNat_lt
  rw [UInt8.ofNat_toNat, h] at this
  exact of_decide_eq_true this

theorem digitValue_isDigit {c d : UInt8} (h : digitValue c = some d) : DigitIs c d.toNat ∧ c ≠ 95 := by
  obtain ⟨h1, h2⟩ := digitValue_range h
  refine ⟨?_, fun h => h1 (by rw [h]; rfl)⟩
  rcases h2 with ⟨ha, hb, hc⟩ | ⟨ha, hb, hc⟩ | ⟨ha, hb, hc⟩
  · exact .inl ⟨d.toNat, by omega, by rw [Nat.add_comm, hc, UInt8.ofNat_toNat], rfl⟩
  · exact .inr ⟨d.toNat - 10, by omega, .inl (by rw [show 97 + (d.toNat - 10) = c.toNat by omega, UInt8.ofNat_toNat]),
      by omega⟩
  · exact .inr ⟨d.toNat - 10, by omega, .inr (by rw [show 65 + (d.toNat - 10) = c.toNat by omega, UInt8.ofNat_toNat]),
      by omega⟩

theorem isDigit_value {c : UInt8} {d : Nat} (h : DigitIs c d) : ∃ e, digitValue c = some e ∧ e.toNat = d ∧ c ≠ 95 := by
  have t1 : ∀ i < 10, ∃ e, digitValue (UInt8.ofNat (48 + i)) = some e ∧ e.toNat = i ∧ UInt8.ofNat (48 + i) ≠ 95 := by
    intro i hi
    refine ⟨UInt8.ofNat i, ?_⟩
    revert i
    decide
  have t2 : ∀ i < 26, ∃ e, digitValue (UInt8.ofNat (97 + i)) = some e ∧ e.toNat = 10 + i ∧ UInt8.ofNat (97 + i) ≠ 95 := by
    intro i hi
    refine ⟨UInt8.ofNat (10 + i), ?_⟩
    revert i
    decide
  have t3 : ∀ i < 26, ∃ e, digitValue (UInt8.ofNat (65 + i)) = some e ∧ e.toNat = 10 + i ∧ UInt8.ofNat (65 + i) ≠ 95 := by
    intro i hi
    refine ⟨UInt8.ofNat (10 + i), ?_⟩
    revert i
    decide
  rcases h with ⟨i, hi, rfl, rfl⟩ | ⟨i, hi, rfl | rfl, rfl⟩
  · exact t1 d hi
  · exact t2 i hi
  · exact t3 i hi

/-- Digits read after a number `n`. -/
inductive DigitsFrom (base : Nat) : Nat → Bytes → Nat → Prop
  | nil {n : Nat} : DigitsFrom base n [] n
  | cons {n : Nat} {c : UInt8} {d : Nat} {s : Bytes} {m : Nat} : DigitIs c d → d < base →
      DigitsFrom base (base * n + d) s m → DigitsFrom base n (c :: s) m

theorem DigitsFrom.snoc {base n m : Nat} {s : Bytes} {c : UInt8} {d : Nat} (h : DigitsFrom base n s m)
    (hc : DigitIs c d) (hd : d < base) : DigitsFrom base n (s ++ [c]) (base * m + d) := by
  induction h with
  | nil => exact .cons hc hd .nil
  | cons h1 h2 _ ih => exact .cons h1 h2 ih

theorem DigitsFrom.of_isDigits {base m : Nat} {s : Bytes} (h : DigitsAre base s m) : DigitsFrom base 0 s m := by
  induction h with
  | nil => exact .nil
  | snoc _ h1 h2 ih => exact ih.snoc h1 h2

theorem DigitsFrom.isDigits {base n m : Nat} {s t : Bytes} (h : DigitsFrom base n s m) (ht : DigitsAre base t n) :
    DigitsAre base (t ++ s) m := by
  induction h generalizing t with
  | nil => rwa [List.append_nil]
  | @cons n c d s m h1 h2 _ ih =>
    have := ih (t := t ++ [c]) (.snoc ht h1 h2)
    rwa [List.append_assoc] at this

theorem DigitsFrom.iff {base m : Nat} {s : Bytes} : DigitsFrom base 0 s m ↔ DigitsAre base s m :=
  ⟨fun h => by simpa using h.isDigits .nil, .of_isDigits⟩

theorem DigitsFrom.le {base n m : Nat} {s : Bytes} (hb : 0 < base) (h : DigitsFrom base n s m) : n ≤ m := by
  induction h with
  | nil => exact Nat.le_refl _
  | @cons n c d s m h1 h2 _ ih => have := Nat.le_mul_of_pos_left n hb; omega

theorem parseDigits_iff {base : UInt64} (hb2 : 1 < base.toNat) (s : GoString) (n : UInt64) (u : Bool) (m : UInt64) (u' : Bool) :
    parseDigits base n u s = some (m, u') ↔
      DigitsFrom base.toNat n.toNat (s.filter (· ≠ 95)) m.toNat ∧ (u' = (u || decide (95 ∈ s))) := by
  have hb : 0 < base.toNat := by omega
  induction s generalizing n u with
  | nil =>
    unfold parseDigits
    constructor
    · intro h
      cases h
      exact ⟨.nil, by simp⟩
    · rintro ⟨h, rfl⟩
      have : n = m := by
        apply UInt64.toNat_inj.mp
        generalize n.toNat = a at h
        generalize m.toNat = b at h
        cases h
        rfl
      simp [this]
  | cons c s ih =>
    unfold parseDigits
    by_cases hc : c = 95
    · subst hc
      rw [if_pos rfl]
      refine (ih n true).trans ?_
      simp
    · rw [if_neg hc]
      have hf : (c :: s).filter (· ≠ 95) = c :: s.filter (· ≠ 95) := by simp [hc]
      have hmem : decide (95 ∈ c :: s) = decide (95 ∈ s) := by
        have : (95 : UInt8) ≠ c := fun h => hc h.symm
        simp [this]
      rw [hf, hmem]
      cases hd : digitValue c with
      | none =>
        dsimp only
        constructor
        · intro h; cases h
        · rintro ⟨h, -⟩
          cases h with
          | cons h1 _ _ =>
            obtain ⟨e, h2, -⟩ := isDigit_value h1
            rw [hd] at h2
            cases h2
      | some d =>
        dsimp only
        have hdig := (digitValue_isDigit hd).1
        have hd36 : d.toNat < 36 := by
          have := digitValue_range hd
          omega
        have hd64 : d.toUInt64.toNat = d.toNat := by simp
        have hinv : ∀ {m : Nat}, DigitsFrom base.toNat n.toNat (c :: s.filter (· ≠ 95)) m →
            d.toNat < base.toNat ∧ DigitsFrom base.toNat (base.toNat * n.toNat + d.toNat) (s.filter (· ≠ 95)) m := by
          intro m h
          cases h with
          | cons h1 h2 h3 =>
            obtain ⟨e, he, he', -⟩ := isDigit_value h1
            rw [hd] at he
            cases he
            subst he'
            exact ⟨h2, h3⟩
        split
        · next hge =>
          constructor
          · intro h; cases h
          · rintro ⟨h, -⟩
            have h1 := (hinv h).1
            have h2 := UInt64.le_iff_toNat_le.mp hge
            omega
        · next hlt =>
          have hlt : d.toNat < base.toNat := by
            have : ¬ base.toNat ≤ d.toUInt64.toNat := fun h => hlt (UInt64.le_iff_toNat_le.mpr h)
            omega
          have hmlt := m.toNat_lt
          have hblt := base.toNat_lt
          have hnlt := n.toNat_lt
          have hq : ((18446744073709551615 : UInt64) / base + 1).toNat = 18446744073709551615 / base.toNat + 1 := by
            rw [UInt64.toNat_add, UInt64.toNat_div]
            have : (18446744073709551615 : UInt64).toNat = 18446744073709551615 := rfl
            rw [this]
            have : 18446744073709551615 / base.toNat ≤ 18446744073709551615 / 2 := Nat.div_le_div_left (by omega) (by omega)
            have h1' : (1 : UInt64).toNat = 1 := rfl
            rw [h1', Nat.mod_eq_of_lt]
            omega
          split
          · next hge =>
            have hge := UInt64.le_iff_toNat_le.mp hge
            rw [hq] at hge
            constructor
            · intro h; cases h
            · rintro ⟨h, -⟩
              have h1 := (hinv h).2.le hb
              have h2 : 18446744073709551615 / base.toNat < n.toNat := by omega
              rw [Nat.div_lt_iff_lt_mul hb, Nat.mul_comm] at h2
              omega
          · next hcut =>
            have hcut : n.toNat ≤ 18446744073709551615 / base.toNat := by
              have : ¬ ((18446744073709551615 : UInt64) / base + 1).toNat ≤ n.toNat :=
                fun h => hcut (UInt64.le_iff_toNat_le.mpr h)
              rw [hq] at this
              omega
            rw [Nat.le_div_iff_mul_le hb] at hcut
            have hmul : (n * base).toNat = n.toNat * base.toNat := by
              rw [UInt64.toNat_mul, Nat.mod_eq_of_lt (by omega)]
            have hadd : (n * base + d.toUInt64).toNat = (n.toNat * base.toNat + d.toNat) % 2 ^ 64 := by
              rw [UInt64.toNat_add, hmul, hd64]
            split
            · next hov =>
              have hov := UInt64.lt_iff_toNat_lt.mp hov
              rw [hadd, hmul] at hov
              constructor
              · intro h; cases h
              · rintro ⟨h, -⟩
                have h1 := (hinv h).2.le hb
                rw [Nat.mul_comm] at h1
                omega
            · next hov =>
              have hov : ¬ (n * base + d.toUInt64).toNat < (n * base).toNat := fun h => hov (UInt64.lt_iff_toNat_lt.mpr h)
              rw [hadd, hmul] at hov
              have hfit : n.toNat * base.toNat + d.toNat < 2 ^ 64 := by omega
              rw [Nat.mod_eq_of_lt hfit] at hadd
              refine (ih _ u).trans ?_
              rw [hadd, Nat.mul_comm n.toNat]
              constructor
              · rintro ⟨h1, h2⟩
                exact ⟨.cons hdig hlt h1, h2⟩
              · rintro ⟨h1, h2⟩
                exact ⟨(hinv h1).2, h2⟩

/-! ## Underscores -/

theorem grouped_nil : Grouped [] := by
  constructor
  · rintro ⟨a, b, h⟩
    have := congrArg List.length h
    simp [ascii] at this
  · rintro ⟨a, h⟩
    have := congrArg List.length h
    simp [ascii] at this

theorem grouped_cons (c : UInt8) (s : Bytes) :
    Grouped (c :: s) ↔ Grouped s ∧ (c = 95 → s ≠ [] ∧ s.head? ≠ some 95) := by
  have e1 : ascii "_" = [95] := rfl
  have e2 : ascii "__" = [95, 95] := rfl
  unfold Grouped
  rw [e1, e2]
  constructor
  · rintro ⟨h1, h2⟩
    refine ⟨⟨?_, ?_⟩, ?_⟩
    · rintro ⟨a, b, rfl⟩
      exact h1 ⟨c :: a, b, by simp⟩
    · rintro ⟨a, rfl⟩
      exact h2 ⟨c :: a, by simp⟩
    · rintro rfl
      constructor
      · rintro rfl
        exact h2 ⟨[], rfl⟩
      · cases s with
        | nil => simp
        | cons d s =>
          intro h
          cases h
          exact h1 ⟨[], s, rfl⟩
  · rintro ⟨⟨h1, h2⟩, h3⟩
    constructor
    · rintro ⟨a, b, h⟩
      cases a with
      | nil =>
        simp at h
        obtain ⟨rfl, rfl⟩ := h
        exact (h3 rfl).2 rfl
      | cons d a =>
        simp at h
        exact h1 ⟨a, b, by simpa using h.2⟩
    · rintro ⟨a, h⟩
      cases a with
      | nil =>
        simp at h
        obtain ⟨rfl, rfl⟩ := h
        exact (h3 rfl).1 rfl
      | cons d a =>
        simp at h
        exact h2 ⟨a, h.2⟩

/-- A digit for `underscoreOK`. -/
def ClassDigit (hex : Bool) (c : UInt8) : Prop :=
  (48 ≤ c ∧ c ≤ 57) ∨ (hex ∧ 97 ≤ lowerByte c ∧ lowerByte c ≤ 102)

theorem classDigit_ne {hex : Bool} {c : UInt8} (h : ClassDigit hex c) : c ≠ 95 := by
  rintro rfl
  revert h
  cases hex <;> unfold ClassDigit <;> decide

theorem underscoreLoop_iff (hex : Bool) (s : GoString) (hs : ∀ c ∈ s, c = 95 ∨ ClassDigit hex c) (saw : Saw) :
    underscoreLoop hex saw s = true ↔
      Grouped s ∧ (s.head? = some 95 → saw = .digit) ∧ (s = [] → saw ≠ .underscore) := by
  induction s generalizing saw with
  | nil =>
    unfold underscoreLoop
    simp [grouped_nil]
  | cons c s ih =>
    have ih := ih (fun d hd => hs d (List.mem_cons_of_mem _ hd))
    unfold underscoreLoop
    rw [grouped_cons]
    rcases hs c List.mem_cons_self with rfl | h
    · have hn : ¬ ((48 ≤ (95 : UInt8) ∧ (95 : UInt8) ≤ 57) ∨ (hex = true ∧ 97 ≤ lowerByte 95 ∧ lowerByte 95 ≤ 102)) := by
        cases hex <;> decide
      rw [if_neg hn, if_pos rfl]
      by_cases hsaw : saw = .digit
      · subst hsaw
        rw [if_neg (by simp), ih]
        simp
        tauto
      · rw [if_pos hsaw]
        simp [hsaw]
    · have hne := classDigit_ne h
      unfold ClassDigit at h
      rw [if_pos h, ih]
      simp [hne]

/-! ## Numbers -/

theorem classDigit_table : ∀ n < 256,
    (((65 ≤ n ∧ n ≤ 70) ∨ (97 ≤ n ∧ n ≤ 102)) → 97 ≤ lowerByte (UInt8.ofNat n) ∧ lowerByte (UInt8.ofNat n) ≤ 102) := by
  decide +kernel

theorem isDigit_class {c : UInt8} {d : Nat} (h : DigitIs c d) :
    (d < 10 → ∀ hex, ClassDigit hex c) ∧ (d < 16 → ClassDigit true c) := by
  obtain ⟨e, he, rfl, -⟩ := isDigit_value h
  obtain ⟨-, h2⟩ := digitValue_range he
  have hd : (48 ≤ c.toNat ∧ c.toNat ≤ 57) → ∀ hex, ClassDigit hex c := fun h hex =>
    .inl ⟨UInt8.le_iff_toNat_le.mpr h.1, UInt8.le_iff_toNat_le.mpr h.2⟩
  constructor
  · intro h
    exact hd (by omega)
  · intro h
    by_cases hlt : c.toNat ≤ 57
    · exact hd (by omega) _
    · have := classDigit_table c.toNat c.toNat_lt (by omega)
      rw [UInt8.ofNat_toNat] at this
      exact .inr ⟨rfl, this⟩

theorem DigitsFrom.mem {base n m : Nat} {s : Bytes} (h : DigitsFrom base n s m) (c : UInt8) (hc : c ∈ s) :
    ∃ d < base, DigitIs c d := by
  induction h with
  | nil => simp at hc
  | @cons n c' d s m h1 h2 _ ih =>
    rcases List.mem_cons.mp hc with rfl | hc
    · exact ⟨d, h2, h1⟩
    · exact ih hc

theorem digits_class {base n m : Nat} {s : Bytes} (hex : Bool) (hb : base ≤ 10 ∨ (base ≤ 16 ∧ hex = true))
    (h : DigitsFrom base n (s.filter (· ≠ 95)) m) (c : UInt8) (hc : c ∈ s) : c = 95 ∨ ClassDigit hex c := by
  by_cases h95 : c = 95
  · exact .inl h95
  · obtain ⟨d, hd, hcd⟩ := h.mem c (by simp [hc, h95])
    have := isDigit_class hcd
    rcases hb with hb | ⟨hb, rfl⟩
    · exact .inr (this.1 (by omega) hex)
    · exact .inr (this.2 (by omega))

/-- What `ParseUint` does once it knows the base. -/
theorem parseUint_base {base : UInt64} (hb : 1 < base.toNat) (s body : GoString) (m : UInt64) :
    (match parseDigits base 0 false body with
      | none => none
      | some (n, underscores) => if underscores ∧ ¬ underscoreOK s then none else some n) = some m ↔
      DigitsFrom base.toNat 0 (body.filter (· ≠ 95)) m.toNat ∧ (95 ∈ body → underscoreOK s = true) := by
  have key := parseDigits_iff hb body 0 false
  rcases h : parseDigits base 0 false body with _ | ⟨n, u⟩
  · dsimp only
    constructor
    · intro h; cases h
    · rintro ⟨h1, -⟩
      have := (key m (decide (95 ∈ body))).mpr ⟨h1, by simp⟩
      rw [h] at this
      cases this
  · dsimp only
    obtain ⟨h1, h2⟩ := (key n u).mp h
    rw [Bool.false_or] at h2
    have hu : ∀ {m : UInt64}, DigitsFrom base.toNat 0 (body.filter (· ≠ 95)) m.toNat → m = n := by
      intro m hm
      have := (key m (decide (95 ∈ body))).mpr ⟨hm, by simp⟩
      rw [h] at this
      exact (Prod.mk.inj (Option.some.inj this)).1.symm
    by_cases h95 : 95 ∈ body
    · simp only [h95, decide_true] at h2
      subst h2
      cases hok : underscoreOK s with
      | true =>
        rw [if_neg (by simp)]
        constructor
        · intro h; cases h; exact ⟨h1, fun _ => rfl⟩
        · rintro ⟨h, -⟩; rw [hu h]
      | false =>
        rw [if_pos (by simp)]
        simp [h95]
    · simp only [h95, decide_false] at h2
      subst h2
      rw [if_neg (by simp)]
      constructor
      · intro h; cases h; exact ⟨h1, fun h => absurd h h95⟩
      · rintro ⟨h, -⟩; rw [hu h]

theorem grouped_of_no_underscore (s : Bytes) (h : 95 ∉ s) : Grouped s := by
  induction s with
  | nil => exact grouped_nil
  | cons c s ih =>
    rw [grouped_cons]
    refine ⟨ih fun h' => h (List.mem_cons_of_mem _ h'), ?_⟩
    rintro rfl
    exact absurd List.mem_cons_self h

theorem parseUint_split {s body : GoString} {base : UInt64} (hb : 1 < base.toNat) (hs : s ≠ [])
    (h : splitBase s = (base, body)) (m : UInt64) : parseUint s = some m ↔
      DigitsFrom base.toNat 0 (body.filter (· ≠ 95)) m.toNat ∧ (95 ∈ body → underscoreOK s = true) := by
  unfold parseUint
  rw [if_neg hs, h]
  exact parseUint_base hb s body m

theorem lower_table : ∀ n < 256,
    (lowerByte (UInt8.ofNat n) = 98 ↔ UInt8.ofNat n = 98 ∨ UInt8.ofNat n = 66) ∧
    (lowerByte (UInt8.ofNat n) = 111 ↔ UInt8.ofNat n = 111 ∨ UInt8.ofNat n = 79) ∧
    (lowerByte (UInt8.ofNat n) = 120 ↔ UInt8.ofNat n = 120 ∨ UInt8.ofNat n = 88) := by
  decide +kernel

theorem lower_prefix (x : UInt8) : (lowerByte x = 98 ↔ x = 98 ∨ x = 66) ∧ (lowerByte x = 111 ↔ x = 111 ∨ x = 79) ∧
    (lowerByte x = 120 ↔ x = 120 ∨ x = 88) := by
  have := lower_table x.toNat x.toNat_lt
  rwa [UInt8.ofNat_toNat] at this

theorem splitBase_ne (s : GoString) (h : s.head? ≠ some 48) : splitBase s = (10, s) := by
  unfold splitBase
  split
  · simp at h
  · simp at h
  · rfl

theorem underscoreOK_zero (x : UInt8) (s : GoString) : underscoreOK (48 :: x :: s) =
    if lowerByte x = 98 ∨ lowerByte x = 111 ∨ lowerByte x = 120 then underscoreLoop (lowerByte x = 120) .digit s
    else underscoreLoop false .beginning (48 :: x :: s) := rfl

theorem underscoreOK_ne (c : UInt8) (s : GoString) (h : c ≠ 48) (h1 : c ≠ 45) (h2 : c ≠ 43) :
    underscoreOK (c :: s) = underscoreLoop false .beginning (c :: s) := by
  unfold underscoreOK
  simp only [h1, h2, or_self, if_false]
  split
  · next he => exact absurd (List.cons.inj he).1 h
  · rfl

/-- A number after one of the three prefixes. -/
theorem parseUint_prefixed {x y : UInt8} {s : GoString} {base : UInt64} (hb : 1 < base.toNat) (hb16 : base.toNat ≤ 16)
    (hx : lowerByte x = 98 ∨ lowerByte x = 111 ∨ lowerByte x = 120)
    (hhex : base.toNat ≤ 10 ∨ lowerByte x = 120)
    (h : splitBase (48 :: x :: y :: s) = (base, y :: s)) (m : UInt64) :
    parseUint (48 :: x :: y :: s) = some m ↔
      Grouped (y :: s) ∧ DigitsAre base.toNat ((y :: s).filter (· ≠ 95)) m.toNat := by
  rw [parseUint_split hb (by simp) h m, underscoreOK_zero, if_pos hx, ← DigitsFrom.iff]
  constructor
  · rintro ⟨h1, h2⟩
    refine ⟨?_, h1⟩
    by_cases h95 : 95 ∈ y :: s
    · have := h2 h95
      rw [underscoreLoop_iff _ _ (digits_class _ (by
        rcases hhex with h | h
        · exact .inl h
        · exact .inr ⟨hb16, decide_eq_true h⟩) h1)] at this
      exact this.1
    · exact grouped_of_no_underscore _ h95
  · rintro ⟨h1, h2⟩
    refine ⟨h2, fun _ => ?_⟩
    rw [underscoreLoop_iff _ _ (digits_class _ (by
        rcases hhex with h | h
        · exact .inl h
        · exact .inr ⟨hb16, decide_eq_true h⟩) h2)]
    exact ⟨h1, fun _ => rfl, by simp⟩

theorem class_no_letter : ∀ n < 256, (48 ≤ UInt8.ofNat n ∧ UInt8.ofNat n ≤ 57) →
    ¬ (lowerByte (UInt8.ofNat n) = 98 ∨ lowerByte (UInt8.ofNat n) = 111 ∨ lowerByte (UInt8.ofNat n) = 120) := by
  decide +kernel

/-- A number after a zero. -/
theorem parseUint_octal {s : GoString} (h : splitBase (48 :: s) = (8, s)) (m : UInt64) :
    parseUint (48 :: s) = some m ↔ Grouped s ∧ DigitsAre 8 (s.filter (· ≠ 95)) m.toNat := by
  have e8 : (8 : UInt64).toNat = 8 := rfl
  rw [parseUint_split (by rw [e8]; omega) (by simp) h m, ← DigitsFrom.iff, e8]
  have hok : DigitsFrom 8 0 (s.filter (· ≠ 95)) m.toNat → (underscoreOK (48 :: s) = true ↔ Grouped s) := by
    intro hd
    have hc := digits_class (base := 8) false (.inl (by omega)) hd
    have hloop : underscoreOK (48 :: s) = underscoreLoop false .beginning (48 :: s) := by
      cases s with
      | nil => rfl
      | cons x s =>
        rw [underscoreOK_zero, if_neg]
        rcases hc x List.mem_cons_self with rfl | h | h
        · decide
        · have := class_no_letter x.toNat x.toNat_lt
          rw [UInt8.ofNat_toNat] at this
          exact this h
        · simp at h
    rw [hloop, underscoreLoop_iff _ _ (by
      intro c hcm
      rcases List.mem_cons.mp hcm with rfl | hcm
      · exact .inr (.inl (by decide))
      · exact hc c hcm), grouped_cons]
    simp
  constructor
  · rintro ⟨h1, h2⟩
    refine ⟨?_, h1⟩
    by_cases h95 : 95 ∈ s
    · exact (hok h1).mp (h2 h95)
    · exact grouped_of_no_underscore _ h95
  · rintro ⟨h1, h2⟩
    exact ⟨h2, fun _ => (hok h2).mpr h1⟩

/-- A number without a leading zero. -/
theorem parseUint_decimal {c : UInt8} {s : GoString} (hc : c ≠ 48) (m : UInt64) :
    parseUint (c :: s) = some m ↔ c ≠ 95 ∧ Grouped (c :: s) ∧ DigitsAre 10 ((c :: s).filter (· ≠ 95)) m.toNat := by
  have e10 : (10 : UInt64).toNat = 10 := rfl
  rw [parseUint_split (by rw [e10]; omega) (by simp) (splitBase_ne (c :: s) (by simpa using hc)) m, ← DigitsFrom.iff, e10]
  have hok : DigitsFrom 10 0 ((c :: s).filter (· ≠ 95)) m.toNat →
      (underscoreOK (c :: s) = true ↔ Grouped (c :: s) ∧ c ≠ 95) := by
    intro hd
    have hcl := digits_class (base := 10) false (.inl (by omega)) hd
    have hsign : c ≠ 45 ∧ c ≠ 43 := by
      rcases hcl c List.mem_cons_self with rfl | h | h
      · decide
      · constructor <;> (rintro rfl; revert h; decide)
      · simp at h
    rw [underscoreOK_ne c s hc hsign.1 hsign.2, underscoreLoop_iff _ _ hcl]
    simp
  constructor
  · rintro ⟨h1, h2⟩
    by_cases h95 : 95 ∈ c :: s
    · have := (hok h1).mp (h2 h95)
      exact ⟨this.2, this.1, h1⟩
    · exact ⟨fun h => h95 (h ▸ List.mem_cons_self), grouped_of_no_underscore _ h95, h1⟩
  · rintro ⟨h1, h2, h3⟩
    exact ⟨h3, fun _ => (hok h3).mpr ⟨h2, h1⟩⟩

theorem isDigits_octal_head {x : UInt8} {s : Bytes} {n : Nat} (h : DigitsAre 8 ((x :: s).filter (· ≠ 95)) n) :
    ¬ (lowerByte x = 98 ∨ lowerByte x = 111 ∨ lowerByte x = 120) := by
  rcases digits_class (base := 8) false (.inl (by omega)) (DigitsFrom.iff.mpr h) x List.mem_cons_self with rfl | h | h
  · decide
  · have := class_no_letter x.toNat x.toNat_lt
    rw [UInt8.ofNat_toNat] at this
    exact this h
  · simp at h

/-- `ParseUint` reads exactly Go's numbers. -/
theorem parseUint_iff (s : GoString) (m : UInt64) : parseUint s = some m ↔ IsUnsigned s m.toNat := by
  cases s with
  | nil =>
    constructor
    · intro h; cases h
    · intro h
      generalize hs : ([] : Bytes) = s at h
      cases h with
      | decimal h => exact absurd hs.symm h
      | octal => cases hs
      | prefixed h =>
        rcases h with ⟨-, rfl | rfl⟩ | ⟨-, rfl | rfl⟩ | ⟨-, rfl | rfl⟩ <;> cases hs
  | cons c s =>
    by_cases hc : c = 48
    · subst hc
      -- whether there is a prefix
      by_cases hp : ∃ x y s', s = x :: y :: s' ∧ (lowerByte x = 98 ∨ lowerByte x = 111 ∨ lowerByte x = 120)
      · obtain ⟨x, y, s', rfl, hx⟩ := hp
        obtain ⟨l1, l2, l3⟩ := lower_prefix x
        have inv : IsUnsigned (48 :: x :: y :: s') m.toNat → ∃ base, ((base = 2 ∧ lowerByte x = 98) ∨
            (base = 8 ∧ lowerByte x = 111) ∨ (base = 16 ∧ lowerByte x = 120)) ∧ Grouped (y :: s') ∧
            DigitsAre base ((y :: s').filter (· ≠ 95)) m.toNat := by
          intro h
          generalize hs : (48 :: x :: y :: s' : Bytes) = s at h
          cases h with
          | decimal h1 h2 => subst hs; exact absurd rfl h2
          | octal h1 h2 =>
            cases hs
            exact absurd hx (isDigits_octal_head h2)
          | @prefixed p s'' base n h h1 h2 h3 =>
            refine ⟨base, ?_⟩
            rcases h with ⟨rfl, rfl | rfl⟩ | ⟨rfl, rfl | rfl⟩ | ⟨rfl, rfl | rfl⟩ <;>
              (cases hs; exact ⟨by decide, h2, h3⟩)
        rcases hx with h98 | h111 | h120
        · have hsp : splitBase (48 :: x :: y :: s') = (2, y :: s') := by
            show (if lowerByte x = 98 then _ else _) = _
            rw [if_pos h98]
          rw [parseUint_prefixed (by decide) (by decide) (.inl h98) (.inl (by decide)) hsp m]
          constructor
          · rintro ⟨h1, h2⟩
            rcases l1.mp h98 with rfl | rfl
            · exact IsUnsigned.prefixed (p := ascii "0b") (.inl ⟨rfl, .inl rfl⟩) (by simp) h1 h2
            · exact IsUnsigned.prefixed (p := ascii "0B") (.inl ⟨rfl, .inr rfl⟩) (by simp) h1 h2
          · intro h
            obtain ⟨base, h1, h2, h3⟩ := inv h
            rcases h1 with ⟨rfl, -⟩ | ⟨-, h⟩ | ⟨-, h⟩
            · exact ⟨h2, h3⟩
            · rw [h98] at h; cases h
            · rw [h98] at h; cases h
        · have hsp : splitBase (48 :: x :: y :: s') = (8, y :: s') := by
            show (if lowerByte x = 98 then _ else if lowerByte x = 111 then _ else _) = _
            rw [if_neg (by rw [h111]; decide), if_pos h111]
          rw [parseUint_prefixed (by decide) (by decide) (.inr (.inl h111)) (.inl (by decide)) hsp m]
          constructor
          · rintro ⟨h1, h2⟩
            rcases l2.mp h111 with rfl | rfl
            · exact IsUnsigned.prefixed (p := ascii "0o") (.inr (.inl ⟨rfl, .inl rfl⟩)) (by simp) h1 h2
            · exact IsUnsigned.prefixed (p := ascii "0O") (.inr (.inl ⟨rfl, .inr rfl⟩)) (by simp) h1 h2
          · intro h
            obtain ⟨base, h1, h2, h3⟩ := inv h
            rcases h1 with ⟨-, h⟩ | ⟨rfl, -⟩ | ⟨-, h⟩
            · rw [h111] at h; cases h
            · exact ⟨h2, h3⟩
            · rw [h111] at h; cases h
        · have hsp : splitBase (48 :: x :: y :: s') = (16, y :: s') := by
            show (if lowerByte x = 98 then _ else if lowerByte x = 111 then _ else if lowerByte x = 120 then _ else _) = _
            rw [if_neg (by rw [h120]; decide), if_neg (by rw [h120]; decide), if_pos h120]
          rw [parseUint_prefixed (by decide) (by decide) (.inr (.inr h120)) (.inr h120) hsp m]
          constructor
          · rintro ⟨h1, h2⟩
            rcases l3.mp h120 with rfl | rfl
            · exact IsUnsigned.prefixed (p := ascii "0x") (.inr (.inr ⟨rfl, .inl rfl⟩)) (by simp) h1 h2
            · exact IsUnsigned.prefixed (p := ascii "0X") (.inr (.inr ⟨rfl, .inr rfl⟩)) (by simp) h1 h2
          · intro h
            obtain ⟨base, h1, h2, h3⟩ := inv h
            rcases h1 with ⟨-, h⟩ | ⟨-, h⟩ | ⟨rfl, -⟩
            · rw [h120] at h; cases h
            · rw [h120] at h; cases h
            · exact ⟨h2, h3⟩
      · have hsp : splitBase (48 :: s) = (8, s) := by
          rcases s with _ | ⟨x, _ | ⟨y, s'⟩⟩
          · rfl
          · rfl
          · have hx : ¬ (lowerByte x = 98 ∨ lowerByte x = 111 ∨ lowerByte x = 120) := fun h => hp ⟨x, y, s', rfl, h⟩
            simp only [not_or] at hx
            show (if lowerByte x = 98 then _ else if lowerByte x = 111 then _ else if lowerByte x = 120 then _ else _) = _
            rw [if_neg hx.1, if_neg hx.2.1, if_neg hx.2.2]
        rw [parseUint_octal hsp m]
        constructor
        · rintro ⟨h1, h2⟩
          exact IsUnsigned.octal h1 h2
        · intro h
          generalize hs : (48 :: s : Bytes) = t at h
          cases h with
          | decimal h1 h2 => subst hs; exact absurd rfl h2
          | octal h1 h2 => cases hs; exact ⟨h1, h2⟩
          | @prefixed p s'' base n h h1 h2 h3 =>
            exfalso
            obtain ⟨y, s3, rfl⟩ := List.exists_cons_of_ne_nil h1
            rcases h with ⟨-, rfl | rfl⟩ | ⟨-, rfl | rfl⟩ | ⟨-, rfl | rfl⟩ <;>
              (cases hs; exact hp ⟨_, y, s3, rfl, by decide⟩)
    · rw [parseUint_decimal hc m]
      constructor
      · rintro ⟨h1, h2, h3⟩
        exact .decimal (by simp) (by simpa using hc) (by simpa using h1) h2 h3
      · intro h
        generalize hs : (c :: s : Bytes) = t at h
        cases h with
        | decimal h1 h2 h3 h4 h5 =>
          subst hs
          exact ⟨by simpa using h3, h4, h5⟩
        | octal h1 h2 => exact absurd (List.cons.inj hs).1 hc
        | @prefixed p s'' base n h h1 h2 h3 =>
          exfalso
          rcases h with ⟨-, rfl | rfl⟩ | ⟨-, rfl | rfl⟩ | ⟨-, rfl | rfl⟩ <;> exact hc (List.cons.inj hs).1

/-- A number in Go's notation does not begin with a sign. -/
theorem isUnsigned_no_sign {c : UInt8} {s : Bytes} {n : Nat} (h : IsUnsigned (c :: s) n) : c ≠ 43 ∧ c ≠ 45 := by
  generalize ht : (c :: s : Bytes) = t at h
  cases h with
  | decimal h1 h2 h3 h4 h5 =>
    subst ht
    rcases digits_class (base := 10) false (.inl (by omega)) (DigitsFrom.iff.mpr h5) c List.mem_cons_self with rfl | h | h
    · decide
    · constructor <;> (rintro rfl; revert h; decide)
    · simp at h
  | octal => rw [(List.cons.inj ht).1]; decide
  | prefixed h =>
    rcases h with ⟨-, rfl | rfl⟩ | ⟨-, rfl | rfl⟩ | ⟨-, rfl | rfl⟩ <;> (rw [(List.cons.inj ht).1]; decide)

/-- The number in `IsUnsigned` is unique. -/
theorem parseUint_complete {s : Bytes} {m : Nat} (h : IsUnsigned s m) (hm : m < 2 ^ 64) :
    parseUint s = some (UInt64.ofNat m) := by
  rw [parseUint_iff, UInt64.toNat_ofNat_of_lt' hm]
  exact h

/-- `ParseInt` reads exactly Go's numbers of 64 bits. -/
theorem parseInt_iff (s : GoString) (n : Int) : parseInt s = some n ↔ IsIntText s n := by
  cases s with
  | nil =>
    constructor
    · intro h; cases h
    · rintro ⟨⟨m, ⟨h | ⟨s', h, -⟩, -⟩ | ⟨s', h, -⟩⟩, -⟩
      · by_cases hm : m < 2 ^ 64
        · have := parseUint_complete h hm; cases this
        · generalize hs : ([] : Bytes) = s at h
          cases h with
          | decimal h => exact absurd hs.symm h
          | octal => cases hs
          | prefixed h =>
            rcases h with ⟨-, rfl | rfl⟩ | ⟨-, rfl | rfl⟩ | ⟨-, rfl | rfl⟩ <;> cases hs
      · cases h
      · cases h
  | cons c s =>
    have hmax : (9223372036854775808 : UInt64).toNat = 9223372036854775808 := rfl
    have hinv : IsIntText (c :: s) n ↔ ∃ m : Nat, IsUnsigned (if c = 43 ∨ c = 45 then s else c :: s) m ∧
        n = (if c = 45 then -(m : Int) else m) ∧ -(2 ^ 63 : Int) ≤ n ∧ n < 2 ^ 63 := by
      unfold IsIntText
      constructor
      · rintro ⟨⟨m, ⟨h | ⟨s', h, h'⟩, hn⟩ | ⟨s', h, h', hn⟩⟩, hr⟩
        · have := isUnsigned_no_sign h
          rw [if_neg (by tauto)]
          exact ⟨m, h, by rw [if_neg this.2, hn], hr⟩
        · cases h
          rw [if_pos (.inl rfl)]
          exact ⟨m, h', by rw [if_neg (by decide), hn], hr⟩
        · cases h
          rw [if_pos (.inr rfl)]
          exact ⟨m, h', hn.trans (if_pos rfl).symm, hr⟩
      · rintro ⟨m, h1, h2, hr⟩
        refine ⟨⟨m, ?_⟩, hr⟩
        by_cases h45 : c = 45
        · subst h45
          rw [if_pos (.inr rfl)] at h1
          rw [if_pos rfl] at h2
          exact .inr ⟨s, rfl, h1, h2⟩
        · rw [if_neg h45] at h2
          refine .inl ⟨?_, h2⟩
          by_cases h43 : c = 43
          · subst h43
            rw [if_pos (.inl rfl)] at h1
            exact .inr ⟨s, rfl, h1⟩
          · rw [if_neg (by tauto)] at h1
            exact .inl h1
    rw [hinv]
    unfold parseInt
    dsimp only
    generalize (if c = 43 ∨ c = 45 then s else c :: s) = digits
    cases hu : parseUint digits with
    | none =>
      dsimp only
      constructor
      · intro h; cases h
      · rintro ⟨m, h1, h2, h3, h4⟩
        have : m < 2 ^ 64 := by
          split at h2 <;> omega
        rw [parseUint_complete h1 this] at hu
        cases hu
    | some un =>
      dsimp only
      have hd := (parseUint_iff _ _).mp hu
      have huniq : ∀ m : Nat, m < 2 ^ 64 → IsUnsigned digits m → m = un.toNat := by
        intro m hm h
        have := parseUint_complete h hm
        rw [hu] at this
        have := Option.some.inj this
        rw [this, UInt64.toNat_ofNat_of_lt' hm]
      by_cases h45 : c = 45
      · subst h45
        simp only [decide_true, not_true_eq_false, false_and, if_false, true_and, if_true]
        split
        · next hgt =>
          have hgt := UInt64.lt_iff_toNat_lt.mp hgt
          rw [hmax] at hgt
          constructor
          · intro h; cases h
          · rintro ⟨m, h1, h2, h3, h4⟩
            have := huniq m (by omega) h1
            omega
        · next hle =>
          have hle : ¬ (9223372036854775808 : UInt64).toNat < un.toNat := fun h => hle (UInt64.lt_iff_toNat_lt.mpr h)
          rw [hmax] at hle
          constructor
          · intro h
            have := Option.some.inj h
            exact ⟨un.toNat, hd, this.symm, by omega, by omega⟩
          · rintro ⟨m, h1, h2, h3, h4⟩
            have := huniq m (by omega) h1
            rw [h2, this]
      · simp only [h45, decide_false, if_false, false_and, not_false_eq_true, true_and, Bool.false_eq_true]
        split
        · next hge =>
          have hge := UInt64.le_iff_toNat_le.mp hge
          rw [hmax] at hge
          constructor
          · intro h; cases h
          · rintro ⟨m, h1, h2, h3, h4⟩
            have := huniq m (by omega) h1
            omega
        · next hlt =>
          have hlt : ¬ (9223372036854775808 : UInt64).toNat ≤ un.toNat := fun h => hlt (UInt64.le_iff_toNat_le.mpr h)
          rw [hmax] at hlt
          constructor
          · intro h
            have := Option.some.inj h
            exact ⟨un.toNat, hd, this.symm, by omega, by omega⟩
          · rintro ⟨m, h1, h2, h3, h4⟩
            have := huniq m (by omega) h1
            rw [h2, this]

theorem parseBool_iff (s : GoString) (b : Bool) : parseBool s = some b ↔ IsBoolText s b := by
  have e : IsBoolText s b ↔ (b = true ∧ (s = ascii "1" ∨ s = ascii "t" ∨ s = ascii "T" ∨ s = ascii "true" ∨
      s = ascii "TRUE" ∨ s = ascii "True")) ∨ (b = false ∧ (s = ascii "0" ∨ s = ascii "f" ∨ s = ascii "F" ∨
      s = ascii "false" ∨ s = ascii "FALSE" ∨ s = ascii "False")) := by
    unfold IsBoolText
    cases b <;> simp
  rw [e]
  unfold parseBool
  split
  · next h =>
    constructor
    · intro h'; cases h'; exact .inl ⟨rfl, h⟩
    · rintro (⟨rfl, -⟩ | ⟨-, h'⟩)
      · rfl
      · exfalso
        rcases h with rfl | rfl | rfl | rfl | rfl | rfl <;> revert h' <;> decide
  · next h =>
    split
    · next h' =>
      constructor
      · intro h; cases h; exact .inr ⟨rfl, h'⟩
      · rintro (⟨-, h''⟩ | ⟨rfl, -⟩)
        · exact absurd h'' h
        · rfl
    · next h' =>
      constructor
      · intro h; cases h
      · rintro (⟨-, h''⟩ | ⟨-, h''⟩)
        · exact absurd h'' h
        · exact absurd h'' h'

/-! ## Words -/

/-- A name that a flag can have. -/
def NameOK (name : GoString) : Prop := name ≠ [] ∧ name.head? ≠ some 45 ∧ 61 ∉ name

theorem splitName_eq (name value : GoString) (h : name ≠ []) (h61 : 61 ∉ name) :
    splitName (name ++ 61 :: value) = (name, some value) := by
  cases name with
  | nil => exact absurd rfl h
  | cons c name =>
    have hn : ∀ x ∈ name, (x ≠ 61) := fun x hx he => h61 (List.mem_cons_of_mem _ (he ▸ hx))
    have h1 : (name ++ 61 :: value).takeWhile (· ≠ 61) = name := by
      rw [List.takeWhile_append_of_pos (by simpa using hn)]
      simp
    have h2 : (name ++ 61 :: value).dropWhile (· ≠ 61) = 61 :: value := by
      rw [List.dropWhile_append_of_pos (by simpa using hn)]
      simp
    simp only [List.cons_append, splitName, h1, h2]

theorem splitName_none (name : GoString) (h61 : 61 ∉ name) : splitName name = (name, none) := by
  cases name with
  | nil => rfl
  | cons c name =>
    have hn : ∀ x ∈ name, (x ≠ 61) := fun x hx he => h61 (List.mem_cons_of_mem _ (he ▸ hx))
    have h1 : name.takeWhile (· ≠ 61) = name := by
      rw [List.takeWhile_eq_self_iff]
      simpa using hn
    have h2 : name.dropWhile (· ≠ 61) = [] := by
      rw [List.dropWhile_eq_nil_iff]
      simpa using hn
    simp only [splitName, h1, h2]

theorem splitName_inv (c : UInt8) (s : GoString) (hc : c ≠ 61) (hc' : c ≠ 45) :
    NameOK (splitName (c :: s)).1 ∧
    (c :: s = (splitName (c :: s)).1 ∧ (splitName (c :: s)).2 = none ∨
      ∃ v, c :: s = (splitName (c :: s)).1 ++ ascii "=" ++ v ∧ (splitName (c :: s)).2 = some v) := by
  have htw : 61 ∉ s.takeWhile (· ≠ 61) := fun h => by
    have := List.mem_takeWhile_imp h
    simp at this
  have hok : NameOK (c :: s.takeWhile (· ≠ 61)) :=
    ⟨by simp, by simpa using hc', by simp only [List.mem_cons, not_or]; exact ⟨fun h => hc h.symm, htw⟩⟩
  have heq := List.takeWhile_append_dropWhile (p := (· ≠ 61)) (l := s)
  rcases h : s.dropWhile (· ≠ 61) with _ | ⟨e, v⟩
  · have : splitName (c :: s) = (c :: s.takeWhile (· ≠ 61), none) := by
      simp only [splitName, h]
    rw [this]
    refine ⟨hok, .inl ⟨?_, rfl⟩⟩
    rw [h, List.append_nil] at heq
    exact congrArg _ heq.symm
  · have : splitName (c :: s) = (c :: s.takeWhile (· ≠ 61), some v) := by
      simp only [splitName, h]
    rw [this]
    refine ⟨hok, .inr ⟨v, ?_, rfl⟩⟩
    have he : e = 61 := by
      have := List.head_dropWhile_not (· ≠ (61 : UInt8)) (l := s) (by rw [h]; simp)
      simp only [h, List.head_cons] at this
      simpa using this
    subst he
    have h1 : ascii "=" = [61] := rfl
    rw [h1]
    conv_lhs => rw [← heq, h]
    simp

theorem flagWord_cons (c : UInt8) (s : GoString) : flagWord (45 :: c :: s) =
    if c = 45 ∧ s = [] then .terminator else flagName (if c = 45 then s else c :: s) := rfl

theorem flagName_cons (n : UInt8) (name : GoString) : flagName (n :: name) =
    if n = 45 ∨ n = 61 then .bad else .flag (splitName (n :: name)).1 (splitName (n :: name)).2 := rfl

theorem flagWord_dash {d name : GoString} (hd : IsDash d) (hok : name ≠ [] ∧ name.head? ≠ some 45 ∧ name.head? ≠ some 61) :
    flagWord (d ++ name) = .flag (splitName name).1 (splitName name).2 := by
  obtain ⟨c, s, rfl⟩ := List.exists_cons_of_ne_nil hok.1
  have h1 : c ≠ 45 := by simpa using hok.2.1
  have h2 : c ≠ 61 := by simpa using hok.2.2
  rcases hd with rfl | rfl
  · show flagWord (45 :: c :: s) = _
    rw [flagWord_cons, if_neg (by tauto), if_neg h1]
    exact if_neg (by tauto)
  · show flagWord (45 :: 45 :: c :: s) = _
    rw [flagWord_cons, if_neg (by simp), if_pos rfl]
    exact if_neg (by tauto)

theorem flagWord_joined {d name value : GoString} (hd : IsDash d) (hok : NameOK name) :
    flagWord (d ++ name ++ ascii "=" ++ value) = .flag name (some value) := by
  have h1 : ascii "=" = [61] := rfl
  rw [h1, List.append_assoc, List.append_assoc, List.cons_append, List.nil_append]
  obtain ⟨h2, h3, h4⟩ := hok
  rw [flagWord_dash hd, splitName_eq name value h2 h4]
  obtain ⟨c, s, rfl⟩ := List.exists_cons_of_ne_nil h2
  refine ⟨by simp, by simpa using h3, ?_⟩
  rintro h
  cases h
  exact h4 List.mem_cons_self

theorem flagWord_bare {d name : GoString} (hd : IsDash d) (hok : NameOK name) : flagWord (d ++ name) = .flag name none := by
  obtain ⟨h2, h3, h4⟩ := hok
  rw [flagWord_dash hd, splitName_none name h4]
  obtain ⟨c, s, rfl⟩ := List.exists_cons_of_ne_nil h2
  refine ⟨by simp, by simpa using h3, ?_⟩
  rintro h
  cases h
  exact h4 List.mem_cons_self

/-- A word with a flag. -/
theorem flagWord_flag {s name : GoString} {value : Option GoString} (h : flagWord s = .flag name value) :
    NameOK name ∧ ∃ d, IsDash d ∧ ((s = d ++ name ∧ value = none) ∨ ∃ v, s = d ++ name ++ ascii "=" ++ v ∧ value = some v) := by
  unfold flagWord at h
  split at h
  · next c s' =>
    split at h
    · cases h
    · next h1 =>
      have key : ∀ (d : GoString) (nm : GoString), IsDash d → 45 :: c :: s' = d ++ nm →
          flagName nm = .flag name value →
          NameOK name ∧ ∃ d, IsDash d ∧ ((45 :: c :: s' = d ++ name ∧ value = none) ∨
            ∃ v, 45 :: c :: s' = d ++ name ++ ascii "=" ++ v ∧ value = some v) := by
        intro d nm hd he hm
        cases nm with
        | nil => cases hm
        | cons n nm =>
          rw [flagName_cons] at hm
          split at hm
          · cases hm
          · next hn =>
            simp only [not_or] at hn
            obtain ⟨h2, h3⟩ := splitName_inv n nm hn.2 hn.1
            injection hm with hm1 hm2
            rw [hm1, hm2] at h3
            rw [hm1] at h2
            refine ⟨h2, d, hd, ?_⟩
            rw [he]
            rcases h3 with ⟨h3, h4⟩ | ⟨v, h3, h4⟩
            · exact .inl ⟨by rw [h3], h4⟩
            · exact .inr ⟨v, by rw [h3]; simp, h4⟩
      by_cases hc : c = 45
      · subst hc
        rw [if_pos rfl] at h
        exact key (ascii "--") s' (.inr rfl) rfl h
      · rw [if_neg hc] at h
        exact key (ascii "-") (c :: s') (.inl rfl) rfl h
  · cases h

theorem flagWord_stop (s : GoString) :
    (flagWord s = .none ↔ s = ascii "-" ∨ s.head? ≠ some 45) ∧ (flagWord s = .terminator ↔ s = ascii "--") := by
  have e1 : ascii "-" = [45] := rfl
  have e2 : ascii "--" = [45, 45] := rfl
  rw [e1, e2]
  unfold flagWord
  split
  · next c s' =>
    split
    · next h => obtain ⟨rfl, rfl⟩ := h; simp
    · next h =>
      have hm : ∀ nm : GoString, flagName nm ≠ .none ∧ flagName nm ≠ .terminator := by
        intro nm
        cases nm with
        | nil => simp [flagName]
        | cons n nm => rw [flagName_cons]; split <;> simp
      refine ⟨⟨fun h' => absurd h' (hm _).1, ?_⟩, ⟨fun h' => absurd h' (hm _).2, ?_⟩⟩
      · simp
      · intro h'
        simp at h'
        exact absurd h' h
  · next h =>
    refine ⟨⟨fun _ => ?_, fun _ => rfl⟩, ⟨fun h' => (by cases h'), fun h' => ?_⟩⟩
    · rcases s with _ | ⟨c, _ | ⟨c', s'⟩⟩
      · simp
      · by_cases hc : c = 45
        · subst hc; simp
        · simp [hc]
      · right
        intro h'
        simp at h'
        subst h'
        exact h _ _ rfl
    · subst h'
      exact absurd rfl (h _ _)

/-! ## Command lines -/

variable {F : Type}

/-- The type of a flag. -/
def FlagVar.kind : FlagVar F → FlagKind
  | .bool _ => .bool
  | .string _ => .string
  | .int _ => .int

/-- The flags that have been defined are those of the list. -/
structure Defines (formal : GoString → Option (FlagVar F)) (flags : List (GoString × FlagKind)) : Prop where
  mem : ∀ name v, formal name = some v → (name, v.kind) ∈ flags
  kind : ∀ name k, (name, k) ∈ flags → ∃ v, formal name = some v ∧ v.kind = k
  names : ∀ x ∈ flags, NameOK x.1
  help : formal (ascii "help") = none ∧ formal (ascii "h") = none

/-- One value after the other. -/
def putAll (formal : GoString → Option (FlagVar F)) : F → List (GoString × GoString) → Option F
  | f, [] => some f
  | f, (name, value) :: ss =>
    match formal name with
    | none => none
    | some v =>
      match v.put value f with
      | none => none
      | some f => putAll formal f ss

variable {formal : GoString → Option (FlagVar F)} {flags : List (GoString × FlagKind)}

theorem put_isSome (hdef : Defines formal flags) {name value : GoString} {v : FlagVar F} (hv : formal name = some v)
    (f : F) : (∃ f', v.put value f = some f') ↔ Valid flags name value := by
  have hk : ∀ k, (name, k) ∈ flags ↔ k = v.kind := by
    intro k
    constructor
    · intro h
      obtain ⟨v', h1, h2⟩ := hdef.kind _ _ h
      rw [hv] at h1
      cases h1
      exact h2.symm
    · rintro rfl
      exact hdef.mem _ _ hv
  unfold Valid
  rw [hk, hk]
  cases v with
  | bool set =>
    unfold FlagVar.kind FlagVar.put
    constructor
    · rintro ⟨f', h⟩
      cases hb : parseBool value with
      | none => simp [hb] at h
      | some b => exact ⟨fun _ => ⟨b, (parseBool_iff _ _).mp hb⟩, fun h => (by cases h)⟩
    · rintro ⟨h, -⟩
      obtain ⟨b, hb⟩ := h rfl
      exact ⟨set b f, by rw [(parseBool_iff _ _).mpr hb]; rfl⟩
  | string set =>
    exact ⟨fun _ => ⟨fun h => (by cases h), fun h => (by cases h)⟩, fun _ => ⟨_, rfl⟩⟩
  | int set =>
    unfold FlagVar.kind FlagVar.put
    constructor
    · rintro ⟨f', h⟩
      cases hb : parseInt value with
      | none => simp [hb] at h
      | some b => exact ⟨fun h => (by cases h), fun _ => ⟨b, (parseInt_iff _ _).mp hb⟩⟩
    · rintro ⟨-, h⟩
      obtain ⟨b, hb⟩ := h rfl
      exact ⟨set b f, by rw [(parseInt_iff _ _).mpr hb]; rfl⟩

theorem isBool_iff (v : FlagVar F) : v.isBool = true ↔ v.kind = .bool := by
  cases v <;> simp [FlagVar.isBool, FlagVar.kind]

/-- One step of the parser. -/
theorem flagParse_cons (f : F) (s : GoString) (args : List GoString) : flagParse formal f (s :: args) =
    match flagWord s with
    | .none => .parsed f (s :: args)
    | .terminator => .parsed f args
    | .bad => .bad
    | .flag name value =>
      match formal name with
      | none => if name = ascii "help" ∨ name = ascii "h" then .help else .bad
      | some v =>
        if v.isBool then
          match v.put (value.getD (ascii "true")) f with
          | none => .bad
          | some f => flagParse formal f args
        else
          match value, args with
          | some value, args =>
            match v.put value f with
            | none => .bad
            | some f => flagParse formal f args
          | none, value :: args =>
            match v.put value f with
            | none => .bad
            | some f => flagParse formal f args
          | none, [] => .bad := by
  conv_lhs => unfold flagParse
  rfl

theorem flagParse_spelled (hdef : Defines formal flags) {name value : GoString} {words : List GoString}
    (hs : Spells flags name value words) {v : FlagVar F} (hv : formal name = some v) {f f' : F}
    (hp : v.put value f = some f') (tail : List GoString) :
    flagParse formal f (words ++ tail) = flagParse formal f' tail := by
  cases hs with
  | @joined d kind hmem hd =>
    have hok := hdef.names _ hmem
    rw [List.cons_append, flagParse_cons, flagWord_joined hd hok]
    dsimp only
    rw [hv]
    dsimp only
    cases hb : v.isBool with
    | true => simp only [Option.getD_some, if_true, hp, List.nil_append]
    | false => simp only [Bool.false_eq_true, if_false, hp, List.nil_append]
  | @bare d hmem hd hval =>
    have hok := hdef.names _ hmem
    obtain ⟨v', h1, h2⟩ := hdef.kind _ _ hmem
    rw [hv] at h1
    cases h1
    subst hval
    rw [List.cons_append, flagParse_cons, flagWord_bare hd hok]
    dsimp only
    rw [hv]
    dsimp only
    rw [if_pos ((isBool_iff v).mpr h2), Option.getD_none, hp]
    rfl
  | @apart d kind hmem hk hd =>
    have hok := hdef.names _ hmem
    obtain ⟨v', h1, h2⟩ := hdef.kind _ _ hmem
    rw [hv] at h1
    cases h1
    rw [List.cons_append, List.cons_append, flagParse_cons, flagWord_bare hd hok]
    dsimp only
    rw [hv]
    dsimp only
    rw [if_neg (fun h => hk (h2.symm.trans ((isBool_iff v).mp h)))]
    rw [hp]
    rfl

theorem flagParse_settings (hdef : Defines formal flags) {words : List GoString} {ss : List (GoString × GoString)}
    (hs : Settings flags words ss) (f : F) :
    ∃ f', putAll formal f ss = some f' ∧ ∀ tail, flagParse formal f (words ++ tail) = flagParse formal f' tail := by
  induction hs generalizing f with
  | nil => exact ⟨f, rfl, fun _ => rfl⟩
  | @cons name value words rest settings h1 h2 _ ih =>
    have hmem : ∃ k, (name, k) ∈ flags := by
      cases h1 with
      | joined h => exact ⟨_, h⟩
      | bare h => exact ⟨_, h⟩
      | apart h => exact ⟨_, h⟩
    obtain ⟨k, hk⟩ := hmem
    obtain ⟨v, hv, -⟩ := hdef.kind _ _ hk
    obtain ⟨f', hf'⟩ := (put_isSome hdef hv f).mpr h2
    obtain ⟨f'', h3, h4⟩ := ih f'
    refine ⟨f'', ?_, fun tail => ?_⟩
    · unfold putAll
      rw [hv]
      dsimp only
      rw [hf']
      exact h3
    · rw [List.append_assoc, flagParse_spelled hdef h1 hv hf', h4]

theorem flagParse_stops (f : F) {tail : List GoString} (h : Stops tail) : ∃ rest, flagParse formal f tail = .parsed f rest := by
  rcases h with rfl | ⟨w, rest, rfl, h⟩
  · exact ⟨[], by unfold flagParse; rfl⟩
  · rw [flagParse_cons]
    obtain ⟨h1, h2⟩ := flagWord_stop w
    rcases h with h | h
    · rw [h2.mpr h]
      exact ⟨_, rfl⟩
    · rw [h1.mpr h]
      exact ⟨_, rfl⟩

theorem flagParse_help (hdef : Defines formal flags) (f : F) {w : GoString} (tail : List GoString) (h : AsksHelp w) :
    flagParse formal f (w :: tail) = .help := by
  obtain ⟨d, name, hd, hn, hw⟩ := h
  have hok : NameOK name := by
    rcases hn with rfl | rfl
    · exact ⟨by decide, by decide, by decide⟩
    · exact ⟨by decide, by decide, by decide⟩
  have hf : formal name = none := by
    rcases hn with rfl | rfl
    · exact hdef.help.1
    · exact hdef.help.2
  rw [flagParse_cons]
  rcases hw with rfl | ⟨v, rfl⟩
  · rw [flagWord_bare hd hok]
    dsimp only
    rw [hf]
    dsimp only
    rw [if_pos hn]
  · rw [flagWord_joined hd hok]
    dsimp only
    rw [hf]
    dsimp only
    rw [if_pos hn]

theorem flagParse_inv (hdef : Defines formal flags) (words : List GoString) (f : F) :
    match flagParse formal f words with
    | .parsed _ _ => ∃ ws ss tail, words = ws ++ tail ∧ Settings flags ws ss ∧ Stops tail
    | .help => ∃ ws ss w tail, words = ws ++ w :: tail ∧ Settings flags ws ss ∧ AsksHelp w
    | .bad => True := by
  generalize hn : words.length = n
  induction n using Nat.strongRecOn generalizing words f with
  | _ n ih =>
    subst hn
    -- a setting in front
    have step : ∀ (name value : GoString) (ws tail : List GoString) (f' : F), words = ws ++ tail → ws ≠ [] →
        Spells flags name value ws → Valid flags name value →
        match flagParse formal f' tail with
        | .parsed _ _ => ∃ ws ss tail, words = ws ++ tail ∧ Settings flags ws ss ∧ Stops tail
        | .help => ∃ ws ss w tail, words = ws ++ w :: tail ∧ Settings flags ws ss ∧ AsksHelp w
        | .bad => True := by
      intro name value ws tail f' he hne h1 h2
      have hlen : tail.length < words.length := by
        rw [he, List.length_append]
        have := List.length_pos_iff.mpr hne
        omega
      have := ih _ hlen tail f' rfl
      revert this
      cases flagParse formal f' tail with
      | parsed f'' rest =>
        rintro ⟨ws', ss, tail', rfl, h4, h5⟩
        exact ⟨ws ++ ws', _, tail', by rw [he, List.append_assoc], .cons h1 h2 h4, h5⟩
      | help =>
        rintro ⟨ws', ss, w, tail', rfl, h4, h5⟩
        exact ⟨ws ++ ws', _, w, tail', by rw [he, List.append_assoc], .cons h1 h2 h4, h5⟩
      | bad => exact fun _ => trivial
    rcases words with _ | ⟨s, args⟩
    · unfold flagParse
      exact ⟨[], [], [], rfl, .nil, .inl rfl⟩
    · rw [flagParse_cons]
      cases hw : flagWord s with
      | none =>
        exact ⟨[], [], _, rfl, .nil, .inr ⟨s, args, rfl, .inr ((flagWord_stop s).1.mp hw)⟩⟩
      | terminator =>
        exact ⟨[], [], _, rfl, .nil, .inr ⟨s, args, rfl, .inl ((flagWord_stop s).2.mp hw)⟩⟩
      | bad => trivial
      | flag name value =>
        obtain ⟨hok, d, hd, hform⟩ := flagWord_flag hw
        dsimp only
        cases hv : formal name with
        | none =>
          dsimp only
          by_cases hh : name = ascii "help" ∨ name = ascii "h"
          · rw [if_pos hh]
            refine ⟨[], [], s, args, rfl, .nil, d, name, hd, hh, ?_⟩
            rcases hform with ⟨h, -⟩ | ⟨v, h, -⟩
            · exact .inl h
            · exact .inr ⟨v, h⟩
          · rw [if_neg hh]
            trivial
        | some v =>
          dsimp only
          have hmem := hdef.mem _ _ hv
          cases hb : v.isBool with
          | true =>
            rw [if_pos rfl]
            rw [(isBool_iff v).mp hb] at hmem
            rcases hp : v.put (value.getD (ascii "true")) f with _ | f'
            · trivial
            · dsimp only
              have hval := (put_isSome hdef hv f).mp ⟨f', hp⟩
              refine step name (value.getD (ascii "true")) [s] args f' rfl (by simp) ?_ hval
              rcases hform with ⟨rfl, rfl⟩ | ⟨w, rfl, rfl⟩
              · exact .bare hmem hd rfl
              · exact .joined hmem hd
          | false =>
            rw [if_neg (by simp)]
            rcases hform with ⟨rfl, rfl⟩ | ⟨w, rfl, rfl⟩
            · rcases args with _ | ⟨w, args⟩
              · trivial
              · dsimp only
                rcases hp : v.put w f with _ | f'
                · trivial
                · dsimp only
                  have hval := (put_isSome hdef hv f).mp ⟨f', hp⟩
                  refine step name w [d ++ name, w] args f' rfl (by simp) (.apart hmem ?_ hd) hval
                  intro h
                  rw [(isBool_iff v).mpr h] at hb
                  cases hb
            · dsimp only
              rcases hp : v.put w f with _ | f'
              · trivial
              · dsimp only
                have hval := (put_isSome hdef hv f).mp ⟨f', hp⟩
                exact step name w [_] args f' rfl (by simp) (.joined hmem hd) hval

/-! ## The last value -/

/-- A variable has the last value it is given. -/
theorem putAll_last {α : Type} (hdef : Defines formal flags) (name : String) (π : F → α) (R : GoString → α → Prop)
    (hother : ∀ n v value f f', formal n = some v → v.put value f = some f' → n ≠ ascii name → π f' = π f)
    (hset : ∀ v value f f', formal (ascii name) = some v → v.put value f = some f' → R value (π f'))
    (ss : List (GoString × GoString)) (f f' : F) (h : putAll formal f ss = some f') :
    Last ss name (R · (π f')) (π f' = π f) := by
  induction ss generalizing f with
  | nil =>
    cases h
    exact .inr ⟨by simp, rfl⟩
  | cons x ss ih =>
    obtain ⟨n, value⟩ := x
    unfold putAll at h
    cases hv : formal n with
    | none => rw [hv] at h; cases h
    | some v =>
      rw [hv] at h
      dsimp only at h
      rcases hp : v.put value f with _ | f1
      · rw [hp] at h; cases h
      · rw [hp] at h
        rcases ih f1 h with ⟨before, val, after, rfl, h1, h2⟩ | ⟨h1, h2⟩
        · exact .inl ⟨(n, value) :: before, val, after, rfl, h1, h2⟩
        · by_cases hn : n = ascii name
          · subst hn
            refine .inl ⟨[], value, ss, rfl, h1, ?_⟩
            dsimp only
            rw [h2]
            exact hset v value f f1 hv hp
          · refine .inr ⟨?_, ?_⟩
            · intro x hx
              rcases List.mem_cons.mp hx with rfl | hx
              · exact hn
              · exact h1 x hx
            · rw [h2]
              exact hother n v value f f1 hv hp hn

end Migp
