import Verif.Go.Base64
import Verif.Spec.Base64
import Verif.Lemmas.Base64
import Mathlib.Tactic.Ring
import Mathlib.Tactic.SplitIfs
/-!
# The base64 decoder against RFC 4648
-/
namespace Migp
open Spec

theorem bits_length (w n : Nat) : (bits w n).length = w := by
  induction w with
  | zero => rfl
  | succ w ih => simp [bits, ih]

/-- The first `a` of `a + b` digits, and the rest. -/
theorem bits_add (a b n : Nat) : bits (a + b) n = bits a (n / 2 ^ b) ++ bits b n := by
  induction a with
  | zero => simp [bits]
  | succ a ih =>
    rw [show a + 1 + b = (a + b) + 1 by omega]
    simp only [bits, ih, List.cons_append]
    congr 3
    rw [Nat.div_div_eq_div_mul, ← pow_add, Nat.add_comm b a]

theorem bits_mod (w n m : Nat) (h : n % 2 ^ w = m % 2 ^ w) : bits w n = bits w m := by
  induction w with
  | zero => rfl
  | succ w ih =>
    have h1 : n / 2 ^ w % 2 = m / 2 ^ w % 2 := by
      have := congrArg (· / 2 ^ w) h
      simpa only [pow_succ, Nat.mod_mul_right_div_self] using this
    have h2 : n % 2 ^ w = m % 2 ^ w := by
      have := congrArg (· % 2 ^ w) h
      simpa only [pow_succ, Nat.mod_mul_right_mod] using this
    simp only [bits, h1, ih h2]

theorem bits_join (a b x y : Nat) (h : y < 2 ^ b) : bits (a + b) (x * 2 ^ b + y) = bits a x ++ bits b y := by
  rw [bits_add]
  congr 1
  · congr 1
    rw [Nat.mul_comm, Nat.mul_add_div (Nat.pow_pos (by omega)), Nat.div_eq_of_lt h, Nat.add_zero]
  · apply bits_mod
    rw [Nat.mul_comm, Nat.mul_add_mod]

theorem bits_inj (w n m : Nat) (hn : n < 2 ^ w) (hm : m < 2 ^ w) (h : bits w n = bits w m) : n = m := by
  induction w generalizing n m with
  | zero => simp at hn hm; omega
  | succ w ih =>
    rw [bits_add w 1, bits_add w 1] at h
    have hl := List.append_inj h (by rw [bits_length, bits_length])
    rw [pow_succ] at hn hm
    have h1 := ih (n / 2 ^ 1) (m / 2 ^ 1) (by omega) (by omega) hl.1
    have h2 := hl.2
    simp only [bits, pow_zero, Nat.div_one, List.cons.injEq, and_true, decide_eq_decide] at h2
    omega

theorem alphabet_char : ∀ n, n < 64 → base64Alphabet[n]? = some (b64Char n) := by decide

theorem alphabet_lt {n : Nat} {c : UInt8} (h : base64Alphabet[n]? = some c) : n < 64 := by
  have := (List.getElem?_eq_some_iff.mp h).1
  exact this

theorem alphabet_val {n : Nat} {c : UInt8} (h : base64Alphabet[n]? = some c) :
    b64Val c = some n ∧ c.toNat ≠ 61 := by
  have hn := alphabet_lt h
  rw [alphabet_char n hn] at h
  obtain rfl := Option.some.inj h
  exact ⟨(b64Char_spec n hn).1, (b64Char_spec n hn).2.1⟩

theorem val_alphabet {n : Nat} {c : UInt8} (h : b64Val c = some n) : base64Alphabet[n]? = some c := by
  have hc := c.toNat_lt
  have key : n < 64 ∧ (b64Char n).toNat = c.toNat := by
    simp only [b64Val] at h
    unfold b64Char
    split_ifs at h <;> obtain rfl := Option.some.inj h <;> refine ⟨by omega, ?_⟩ <;> split_ifs <;>
      first
        | omega
        | (rw [UInt8.toNat_ofNat', Nat.mod_eq_of_lt (by omega)]; omega)
        | (simp; omega)
  rw [alphabet_char n key.1]
  exact congrArg some (UInt8.toNat.inj key.2)

/-- One byte from two characters. -/
theorem bits_byte1 {x y : Nat} (hx : x < 64) (hy : y < 64) :
    bits 6 x ++ bits 6 y = bits 8 (UInt8.ofNat (x * 4 + y / 16)).toNat ++ bits 4 y := by
  have h1 : bits 8 (x * 4 + y / 16) = bits 6 x ++ bits 2 (y / 16) := bits_join 6 2 x (y / 16) (by omega)
  have h2 : bits 6 y = bits 2 (y / 16) ++ bits 4 y := bits_add 2 4 y
  rw [UInt8.toNat_ofNat', Nat.mod_eq_of_lt (by omega), h1, h2, List.append_assoc]

theorem bits_byte2 {y z : Nat} (hz : z < 64) :
    bits 4 y ++ bits 6 z = bits 8 (UInt8.ofNat (y % 16 * 16 + z / 4)).toNat ++ bits 2 z := by
  have h1 : bits 8 (y % 16 * 16 + z / 4) = bits 4 (y % 16) ++ bits 4 (z / 4) :=
    bits_join 4 4 (y % 16) (z / 4) (by omega)
  have h2 : bits 6 z = bits 4 (z / 4) ++ bits 2 z := bits_add 4 2 z
  rw [UInt8.toNat_ofNat', Nat.mod_eq_of_lt (by omega), h1, h2, List.append_assoc, bits_mod 4 (y % 16) y (by omega)]

theorem bits_byte3 {z w : Nat} (hw : w < 64) :
    bits 2 z ++ bits 6 w = bits 8 (UInt8.ofNat (z % 4 * 64 + w)).toNat := by
  have h1 : bits 8 (z % 4 * 64 + w) = bits 2 (z % 4) ++ bits 6 w := bits_join 2 6 (z % 4) w (by omega)
  rw [UInt8.toNat_ofNat', Nat.mod_eq_of_lt (by omega), h1, bits_mod 2 (z % 4) z (by omega)]

/-- The bits of four characters are those of three bytes. -/
theorem bits_group {x y z w : Nat} (hx : x < 64) (hy : y < 64) (hz : z < 64) (hw : w < 64) :
    bits 6 x ++ (bits 6 y ++ (bits 6 z ++ bits 6 w)) = bits 8 (UInt8.ofNat (x * 4 + y / 16)).toNat ++
      (bits 8 (UInt8.ofNat (y % 16 * 16 + z / 4)).toNat ++ bits 8 (UInt8.ofNat (z % 4 * 64 + w)).toNat) := by
  rw [← bits_byte3 hw, ← List.append_assoc, bits_byte1 hx hy, List.append_assoc, ← List.append_assoc (bits 4 y),
    bits_byte2 hz, List.append_assoc]

theorem eq61 {c : UInt8} (h : c.toNat = 61) : c = 61 := UInt8.toNat.inj h

/-- What the decoder accepts is base64 of what it returns. -/
theorem b64Quanta_sound : ∀ (s b : Bytes), b64Quanta s = some b → ∃ extra, Base64 s b extra
  | [], b, h => by
    obtain rfl := Option.some.inj h
    exact ⟨[], [], [], 0, rfl, .nil, by decide, rfl, rfl, by decide⟩
  | [_], _, h => by simp [b64Quanta] at h
  | [_, _], _, h => by simp [b64Quanta] at h
  | [_, _, _], _, h => by simp [b64Quanta] at h
  | a :: b' :: c :: d :: rest, b, h => by
    rw [b64Quanta] at h
    cases hx : b64Val a with
    | none => simp [hx] at h
    | some x =>
    cases hy : b64Val b' with
    | none => simp [hx, hy] at h
    | some y =>
    simp only [hx, hy] at h
    have hx' := val_alphabet hx
    have hy' := val_alphabet hy
    have lx := alphabet_lt hx'
    have ly := alphabet_lt hy'
    split at h
    · rename_i hc
      split at h
      · rename_i hd
        obtain rfl := Option.some.inj h
        obtain ⟨hd, rfl⟩ := hd
        obtain rfl := eq61 hc
        obtain rfl := eq61 hd
        refine ⟨bits 4 y, [a, b'], [x, y], 2, rfl, .cons hx' (.cons hy' .nil), by decide, by simp, ?_, ?_⟩
        · simp only [List.flatMap_cons, List.flatMap_nil, List.append_nil]
          exact bits_byte1 lx ly
        · rw [bits_length]; decide
      · cases h
    · cases hz : b64Val c with
      | none => simp [hz] at h
      | some z =>
      simp only [hz] at h
      have hz' := val_alphabet hz
      have lz := alphabet_lt hz'
      split at h
      · rename_i hd
        split at h
        · rename_i hr
          obtain rfl := Option.some.inj h
          subst hr
          obtain rfl := eq61 hd
          refine ⟨bits 2 z, [a, b', c], [x, y, z], 1, rfl, .cons hx' (.cons hy' (.cons hz' .nil)), by decide, by simp, ?_, ?_⟩
          · simp only [List.flatMap_cons, List.flatMap_nil, List.append_nil]
            rw [← List.append_assoc, bits_byte1 lx ly, List.append_assoc, bits_byte2 lz, List.append_assoc]
          · rw [bits_length]; decide
        · cases h
      · cases hw : b64Val d with
        | none => simp [hw] at h
        | some w =>
        cases hr : b64Quanta rest with
        | none => simp [hw, hr] at h
        | some r =>
        simp only [hw, hr] at h
        obtain rfl := Option.some.inj h
        have hw' := val_alphabet hw
        have lw := alphabet_lt hw'
        obtain ⟨extra, chars, sextets, k, rfl, hf, hk, hl, hb, he⟩ := b64Quanta_sound rest r hr
        refine ⟨extra, a :: b' :: c :: d :: chars, x :: y :: z :: w :: sextets, k, rfl,
          .cons hx' (.cons hy' (.cons hz' (.cons hw' hf))), hk, ?_, ?_, he⟩
        · simp only [List.length_cons]; omega
        · simp only [List.flatMap_cons, hb]
          have := bits_group lx ly lz lw
          simp only [← List.append_assoc] at this ⊢
          rw [this]

/-- Everything of the right shape is accepted. -/
theorem b64Quanta_total (chars : Bytes) (sextets : List Nat) (k : Nat)
    (hf : List.Forall₂ (fun c n => base64Alphabet[n]? = some c) chars sextets) (hk : k < 3)
    (hl : (chars ++ List.replicate k 61).length % 4 = 0) :
    ∃ b, b64Quanta (chars ++ List.replicate k 61) = some b := by
  match chars, sextets, hf with
  | [], [], _ =>
    have : k = 0 := by simp at hl; omega
    subst this
    exact ⟨[], rfl⟩
  | [_], [_], _ => simp at hl; omega
  | [a, b], [x, y], .cons h1 (.cons h2 .nil) =>
    have : k = 2 := by simp at hl; omega
    subst this
    exact ⟨_, by
      simp only [List.cons_append, List.nil_append, List.replicate, b64Quanta, (alphabet_val h1).1, (alphabet_val h2).1]
      rfl⟩
  | [a, b, c], [x, y, z], .cons h1 (.cons h2 (.cons h3 .nil)) =>
    have : k = 1 := by simp at hl; omega
    subst this
    exact ⟨[UInt8.ofNat (x * 4 + y / 16), UInt8.ofNat (y % 16 * 16 + z / 4)], by
      simp only [List.cons_append, List.nil_append, List.replicate, b64Quanta, (alphabet_val h1).1,
        (alphabet_val h2).1, (alphabet_val h3).1, (alphabet_val h3).2, if_false]
      rfl⟩
  | a :: b :: c :: d :: chars, x :: y :: z :: w :: sextets, .cons h1 (.cons h2 (.cons h3 (.cons h4 hf))) =>
    obtain ⟨r, hr⟩ := b64Quanta_total chars sextets k hf hk (by simp only [List.cons_append, List.length_cons] at hl; omega)
    exact ⟨UInt8.ofNat (x * 4 + y / 16) :: UInt8.ofNat (y % 16 * 16 + z / 4) :: UInt8.ofNat (z % 4 * 64 + w) :: r, by
      simp only [List.cons_append, b64Quanta, (alphabet_val h1).1, (alphabet_val h2).1,
        (alphabet_val h3).1, (alphabet_val h3).2, (alphabet_val h4).1, (alphabet_val h4).2, if_false, hr]⟩

theorem flatMap_bits_length {A : Type} (w : Nat) (f : A → Nat) (l : List A) :
    (l.flatMap (fun x => bits w (f x))).length = w * l.length := by
  induction l with
  | nil => rfl
  | cons a l ih => rw [List.flatMap_cons, List.length_append, bits_length, ih, List.length_cons]; ring

theorem flatMap_bits_inj : ∀ (b b' : Bytes), b.flatMap (fun x => bits 8 x.toNat) = b'.flatMap (fun x => bits 8 x.toNat) →
    b = b'
  | [], [], _ => rfl
  | [], y :: b', h => by
    have := congrArg List.length h
    rw [flatMap_bits_length 8 UInt8.toNat, flatMap_bits_length 8 UInt8.toNat] at this
    simp at this
  | x :: b, [], h => by
    have := congrArg List.length h
    rw [flatMap_bits_length 8 UInt8.toNat, flatMap_bits_length 8 UInt8.toNat] at this
    simp at this
  | x :: b, y :: b', h => by
    rw [List.flatMap_cons, List.flatMap_cons] at h
    have := List.append_inj h (by rw [bits_length, bits_length])
    rw [flatMap_bits_inj b b' this.2, UInt8.toNat.inj (bits_inj 8 _ _ x.toNat_lt y.toNat_lt this.1)]

theorem forall₂_functional : ∀ (chars : Bytes) (s s' : List Nat),
    List.Forall₂ (fun c n => base64Alphabet[n]? = some c) chars s →
    List.Forall₂ (fun c n => base64Alphabet[n]? = some c) chars s' → s = s'
  | [], _, _, .nil, .nil => rfl
  | c :: chars, n :: s, n' :: s', .cons h1 h2, .cons h1' h2' => by
    rw [forall₂_functional chars s s' h2 h2']
    have := (alphabet_val h1).1.symm.trans (alphabet_val h1').1
    rw [Option.some.inj this]

theorem forall₂_no_pad : ∀ (chars : Bytes) (s : List Nat),
    List.Forall₂ (fun c n => base64Alphabet[n]? = some c) chars s → ∀ c ∈ chars, c ≠ 61
  | [], _, .nil, _, hc => by cases hc
  | c :: chars, n :: s, .cons h1 h2, x, hx => by
    rcases List.mem_cons.mp hx with rfl | hx
    · intro h
      exact (alphabet_val h1).2 (by rw [h]; rfl)
    · exact forall₂_no_pad chars s h2 x hx

theorem split_pad (chars chars' : Bytes) (k k' : Nat) (h1 : ∀ c ∈ chars, c ≠ 61) (h2 : ∀ c ∈ chars', c ≠ 61)
    (h : chars ++ List.replicate k 61 = chars' ++ List.replicate k' 61) : chars = chars' := by
  have f : ∀ (cs : Bytes) (k : Nat), (∀ c ∈ cs, c ≠ 61) →
      (cs ++ List.replicate k 61).filter (fun c => c ≠ 61) = cs := by
    intro cs k hc
    rw [List.filter_append, List.filter_eq_self.mpr (by simpa using hc)]
    simp
  rw [← f chars k h1, h, f chars' k' h2]

/-- A text is base64 of at most one byte string. -/
theorem base64_unique {s b b' : Bytes} {e e' : List Bool} (h : Base64 s b e) (h' : Base64 s b' e') : b = b' := by
  obtain ⟨chars, sx, k, hs, hf, _, _, hb, he⟩ := h
  obtain ⟨chars', sx', k', hs', hf', _, _, hb', he'⟩ := h'
  have hc := split_pad chars chars' k k' (forall₂_no_pad _ _ hf) (forall₂_no_pad _ _ hf') (hs.symm.trans hs')
  subst hc
  obtain rfl := forall₂_functional _ _ _ hf hf'
  have h := hb.symm.trans hb'
  have hl := congrArg List.length h
  rw [List.length_append, List.length_append, flatMap_bits_length 8 UInt8.toNat, flatMap_bits_length 8 UInt8.toNat] at hl
  exact flatMap_bits_inj b b' (List.append_inj h (by
    rw [flatMap_bits_length 8 UInt8.toNat, flatMap_bits_length 8 UInt8.toNat]; omega)).1

theorem b64Quanta_iff (s b : Bytes) : b64Quanta s = some b ↔ ∃ extra, Base64 s b extra := by
  refine ⟨b64Quanta_sound s b, fun ⟨e, h⟩ => ?_⟩
  obtain ⟨chars, sx, k, hs, hf, hk, hl, hb, he⟩ := id h
  have hk3 : k < 3 := by
    have h1 := congrArg List.length hb
    rw [List.length_append, flatMap_bits_length 8 UInt8.toNat, flatMap_bits_length 6 (fun n => n)] at h1
    have h2 := hf.length_eq
    rw [hs, List.length_append, List.length_replicate] at hl
    omega
  subst hs
  obtain ⟨b', hb'⟩ := b64Quanta_total chars sx k hf hk3 hl
  obtain ⟨e', h'⟩ := b64Quanta_sound _ _ hb'
  rw [hb', base64_unique h h']

theorem b64Decode_iff (s b : Bytes) : b64Decode s = some b ↔ IsBase64 s b := by
  unfold b64Decode IsBase64
  have hf : s.filter (fun c => c.toNat ≠ 10 ∧ c.toNat ≠ 13) = s.filter (fun c => c ≠ 10 ∧ c ≠ 13) := by
    apply List.filter_congr
    intro c _
    have h1 : c.toNat = 10 ↔ c = 10 := ⟨fun h => UInt8.toNat.inj h, fun h => by rw [h]; rfl⟩
    have h2 : c.toNat = 13 ↔ c = 13 := ⟨fun h => UInt8.toNat.inj h, fun h => by rw [h]; rfl⟩
    simp only [ne_eq, h1, h2]
  rw [hf, b64Quanta_iff]

theorem canonical_one (a : UInt8) : CanonicalBase64 (b64Encode [a]) [a] := by
  have ha := a.toNat_lt
  have hx := alphabet_char (a.toNat / 4) (by omega)
  have hy := alphabet_char (a.toNat % 4 * 16) (by omega)
  have h1 : bits 8 a.toNat = bits 6 (a.toNat / 4) ++ bits 2 a.toNat := bits_add 6 2 _
  have h2 : bits 6 (a.toNat % 4 * 16) = bits 2 (a.toNat % 4) ++ bits 4 0 := by
    have h := bits_join 2 4 (a.toNat % 4) 0 (by decide)
    rw [Nat.add_zero, show (2 : Nat) ^ 4 = 16 from rfl] at h
    exact h
  have h0 : bits 4 0 = List.replicate 4 false := by decide
  rw [b64Encode]
  generalize b64Char (a.toNat / 4) = c at hx ⊢
  generalize b64Char (a.toNat % 4 * 16) = d at hy ⊢
  refine ⟨4, [c, d], [a.toNat / 4, a.toNat % 4 * 16], 2, rfl, .cons hx (.cons hy .nil), by decide, by simp, ?_, by simp⟩
  simp only [List.flatMap_cons, List.flatMap_nil, List.append_nil]
  rw [h1, h2, h0, bits_mod 2 (a.toNat % 4) a.toNat (by omega), List.append_assoc]

theorem canonical_two (a b : UInt8) : CanonicalBase64 (b64Encode [a, b]) [a, b] := by
  have ha := a.toNat_lt
  have hb := b.toNat_lt
  refine ⟨2, [b64Char (a.toNat / 4), b64Char (a.toNat % 4 * 16 + b.toNat / 16), b64Char (b.toNat % 16 * 4)],
    [a.toNat / 4, a.toNat % 4 * 16 + b.toNat / 16, b.toNat % 16 * 4], 1, rfl,
    .cons (alphabet_char _ (by omega)) (.cons (alphabet_char _ (by omega)) (.cons (alphabet_char _ (by omega)) .nil)),
    by decide, by simp [b64Encode], ?_, by simp⟩
  have h1 : bits 8 a.toNat = bits 6 (a.toNat / 4) ++ bits 2 a.toNat := bits_add 6 2 _
  have h2 : bits 6 (a.toNat % 4 * 16 + b.toNat / 16) = bits 2 (a.toNat % 4) ++ bits 4 (b.toNat / 16) :=
    bits_join 2 4 (a.toNat % 4) (b.toNat / 16) (by omega)
  have h3 : bits 8 b.toNat = bits 4 (b.toNat / 16) ++ bits 4 b.toNat := bits_add 4 4 _
  have h4 : bits 6 (b.toNat % 16 * 4) = bits 4 (b.toNat % 16) ++ bits 2 0 := by
    have h := bits_join 4 2 (b.toNat % 16) 0 (by decide)
    rw [Nat.add_zero, show (2 : Nat) ^ 2 = 4 from rfl] at h
    exact h
  simp only [List.flatMap_cons, List.flatMap_nil, List.append_nil]
  have h0 : bits 2 0 = List.replicate 2 false := by decide
  rw [h1, h2, h3, h4, h0, bits_mod 2 (a.toNat % 4) a.toNat (by omega), bits_mod 4 (b.toNat % 16) b.toNat (by omega)]
  simp only [List.append_assoc]

theorem canonical_more (a b c : UInt8) (rest : Bytes) (h : CanonicalBase64 (b64Encode rest) rest) :
    CanonicalBase64 (b64Encode (a :: b :: c :: rest)) (a :: b :: c :: rest) := by
  have ha := a.toNat_lt
  have hb := b.toNat_lt
  have hc := c.toNat_lt
  obtain ⟨n, chars, sextets, k, hs, hf, hk, hl, hbits, he⟩ := h
  refine ⟨n, b64Char (a.toNat / 4) :: b64Char (a.toNat % 4 * 16 + b.toNat / 16) ::
    b64Char (b.toNat % 16 * 4 + c.toNat / 64) :: b64Char (c.toNat % 64) :: chars,
    a.toNat / 4 :: (a.toNat % 4 * 16 + b.toNat / 16) :: (b.toNat % 16 * 4 + c.toNat / 64) :: c.toNat % 64 :: sextets, k,
    by rw [b64Encode, hs]; rfl,
    .cons (alphabet_char _ (by omega)) (.cons (alphabet_char _ (by omega)) (.cons (alphabet_char _ (by omega))
      (.cons (alphabet_char _ (by omega)) hf))), hk, by simp only [b64Encode, List.length_cons]; omega, ?_, he⟩
  have h1 : bits 8 a.toNat = bits 6 (a.toNat / 4) ++ bits 2 a.toNat := bits_add 6 2 _
  have h2 : bits 6 (a.toNat % 4 * 16 + b.toNat / 16) = bits 2 (a.toNat % 4) ++ bits 4 (b.toNat / 16) :=
    bits_join 2 4 (a.toNat % 4) (b.toNat / 16) (by omega)
  have h3 : bits 8 b.toNat = bits 4 (b.toNat / 16) ++ bits 4 b.toNat := bits_add 4 4 _
  have h4 : bits 6 (b.toNat % 16 * 4 + c.toNat / 64) = bits 4 (b.toNat % 16) ++ bits 2 (c.toNat / 64) :=
    bits_join 4 2 (b.toNat % 16) (c.toNat / 64) (by omega)
  have h5 : bits 8 c.toNat = bits 2 (c.toNat / 64) ++ bits 6 c.toNat := bits_add 2 6 _
  simp only [List.flatMap_cons]
  rw [hbits, h1, h2, h3, h4, h5, bits_mod 2 (a.toNat % 4) a.toNat (by omega),
    bits_mod 4 (b.toNat % 16) b.toNat (by omega), bits_mod 6 (c.toNat % 64) c.toNat (by omega)]
  simp only [List.append_assoc]

/-- The encoder writes canonical base64. -/
theorem b64Encode_canonical : ∀ b : Bytes, CanonicalBase64 (b64Encode b) b
  | [] => ⟨0, [], [], 0, rfl, .nil, by decide, rfl, rfl, by decide⟩
  | [a] => canonical_one a
  | [a, b] => canonical_two a b
  | a :: b :: c :: rest => canonical_more a b c rest (b64Encode_canonical rest)

end Migp
