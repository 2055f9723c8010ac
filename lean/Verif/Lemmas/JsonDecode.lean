import Verif.Spec.Json
import Verif.Lemmas.Base64Spec
/-!
# Lemmas about decoding JSON objects into structs
-/
namespace Migp.Json
open Migp.Spec

/-- Lower case of an ASCII letter. -/
def lower (c : UInt8) : UInt8 := if 65 ≤ c.toNat ∧ c.toNat ≤ 90 then UInt8.ofNat (c.toNat + 32) else c

theorem lower_toNat (c : UInt8) : (lower c).toNat = if 65 ≤ c.toNat ∧ c.toNat ≤ 90 then c.toNat + 32 else c.toNat := by
  have := c.toNat_lt
  unfold lower
  split
  · rw [UInt8.toNat_ofNat']
    omega
  · rfl

theorem sameLetter_iff (a b : UInt8) : SameLetter a b ↔ lower a = lower b := by
  unfold SameLetter
  rw [← UInt8.toNat_inj, ← UInt8.toNat_inj, lower_toNat, lower_toNat]
  split <;> split <;> omega

theorem fold_ascii : (s : GoString) → (∀ c ∈ s, c.toNat < 128) → fold s = s.map lower
  | [], _ => rfl
  | c :: rest, h => by
    have hc := h c (List.mem_cons_self ..)
    have ih := fold_ascii rest (fun x hx => h x (List.mem_cons_of_mem _ hx))
    rw [fold.eq_3, ih, List.map_cons, lower]
    · rintro r rfl
      exact absurd hc (by decide)
    · rintro r rfl
      exact absurd hc (by decide)

theorem sameName_iff (name : GoString) (hn : ∀ c ∈ name, c.toNat < 128) (key : GoString) :
    SameName name key ↔ fold name = fold key := by
  rw [fold_ascii name hn]
  constructor
  · intro h
    induction h with
    | nil => rfl
    | @cons a b name key hab h ih =>
      have ha := hn a (List.mem_cons_self ..)
      have hb : b.toNat < 128 := by
        unfold SameLetter at hab
        rcases hab with rfl | hab | hab <;> omega
      rw [List.map_cons, ih (fun x hx => hn x (List.mem_cons_of_mem _ hx)), fold.eq_3,
        (sameLetter_iff a b).mp hab, lower]
      · rintro r rfl
        exact absurd hb (by decide)
      · rintro r rfl
        exact absurd hb (by decide)
    | @kelvin a name key hab h ih =>
      rw [List.map_cons, ih (fun x hx => hn x (List.mem_cons_of_mem _ hx)), (sameLetter_iff a _).mp hab, fold]
      rfl
    | @longS a name key hab h ih =>
      rw [List.map_cons, ih (fun x hx => hn x (List.mem_cons_of_mem _ hx)), (sameLetter_iff a _).mp hab, fold]
      rfl
  · intro h
    induction key using fold.induct generalizing name with
    | case1 rest ih =>
      rw [fold] at h
      cases name with
      | nil => cases h
      | cons a name =>
        rw [List.map_cons, List.cons.injEq] at h
        exact .kelvin ((sameLetter_iff a _).mpr h.1) (ih name (fun x hx => hn x (List.mem_cons_of_mem _ hx)) h.2)
    | case2 rest ih =>
      rw [fold] at h
      cases name with
      | nil => cases h
      | cons a name =>
        rw [List.map_cons, List.cons.injEq] at h
        exact .longS ((sameLetter_iff a _).mpr h.1) (ih name (fun x hx => hn x (List.mem_cons_of_mem _ hx)) h.2)
    | case3 c rest h1 h2 ih =>
      rw [fold.eq_3 _ _ h1 h2] at h
      cases name with
      | nil => cases h
      | cons a name =>
        rw [List.map_cons, List.cons.injEq] at h
        exact .cons ((sameLetter_iff a _).mpr h.1) (ih name (fun x hx => hn x (List.mem_cons_of_mem _ hx)) h.2)
    | case4 =>
      cases name with
      | nil => exact .nil
      | cons a name => cases h

theorem isDecimal_iff (lit : Bytes) (n : Nat) :
    IsDecimal lit n ↔ lit ≠ [] ∧ lit.all isDigit = true ∧ digitsVal lit = n := by
  constructor
  · intro h
    induction h with
    | one h1 h2 =>
      refine ⟨by simp, ?_, by simp [digitsVal]⟩
      simp [isDigit, h1, h2]
    | @more ds n d _ h1 h2 ih =>
      obtain ⟨_, i2, i3⟩ := ih
      refine ⟨by simp, ?_, ?_⟩
      · rw [List.all_append, i2]
        simp [isDigit, h1, h2]
      · unfold digitsVal at i3 ⊢
        rw [List.foldl_append, i3]
        simp only [List.foldl_cons, List.foldl_nil]
        omega
  · rintro ⟨h1, h2, rfl⟩
    induction lit using List.reverseRecOn with
    | nil => exact absurd rfl h1
    | append_singleton ds d ih =>
      rw [List.all_append, Bool.and_eq_true] at h2
      have hd : 48 ≤ d.toNat ∧ d.toNat ≤ 57 := by simpa [isDigit] using h2.2
      by_cases he : ds = []
      · subst he
        have : digitsVal ([] ++ [d]) = d.toNat - 48 := by simp [digitsVal]
        rw [this]
        exact .one hd.1 hd.2
      · have : digitsVal (ds ++ [d]) = 10 * digitsVal ds + (d.toNat - 48) := by
          unfold digitsVal
          rw [List.foldl_append]
          simp only [List.foldl_cons, List.foldl_nil]
          omega
        rw [this]
        exact .more (ih he h2.1) hd.1 hd.2

theorem parseUint_iff (max : Nat) (lit : Bytes) (n : Nat) :
    parseUint max lit = some n ↔ IsDecimal lit n ∧ n ≤ max := by
  rw [isDecimal_iff]
  unfold parseUint
  split
  · rename_i h
    rw [Option.some.injEq]
    constructor
    · rintro rfl; exact ⟨⟨h.1, h.2.1, rfl⟩, h.2.2⟩
    · rintro ⟨⟨_, _, h⟩, _⟩; exact h
  · rename_i h
    constructor
    · intro h'; cases h'
    · rintro ⟨⟨h1, h2, rfl⟩, h3⟩; exact absurd ⟨h1, h2, h3⟩ h

/-- How a decoder for a field behaves: acceptable values are stored; other values leave the old one, provided they
are regular (`reg`); an error is recorded for bad values only. -/
structure Obeys {A : Type} (acc : JVal → A → Prop) (reg bad : JVal → Prop)
    (d : (Nat → UInt8) → JVal → A → A × Bool) : Prop where
  take : ∀ st v old a, acc v a → (d st v old).1 = a
  keep : ∀ st v old, reg v → (¬ ∃ a, acc v a) → (d st v old).1 = old
  err : ∀ st v old, (d st v old).2 = true ↔ bad v

/-- Bad values of most fields: neither acceptable nor `null`. -/
def Unacceptable {A : Type} (acc : JVal → A → Prop) (v : JVal) : Prop := v ≠ .null ∧ ¬ ∃ a, acc v a

theorem setUint_acc {max : Nat} {v : JVal} {n : Nat} (h : IsUint max v n) (old : Nat) :
    setUint max v old = (n, false) := by
  obtain ⟨lit, rfl, h1, h2⟩ := h
  unfold setUint
  dsimp only
  rw [(parseUint_iff max lit n).mpr ⟨h1, h2⟩]

theorem setUint_rej {max : Nat} {v : JVal} (h : ¬ ∃ n, IsUint max v n) (old : Nat) :
    (setUint max v old).1 = old ∧ ((setUint max v old).2 = true ↔ v ≠ .null) := by
  cases v with
  | null => simp [setUint]
  | num lit =>
    have : parseUint max lit = none := by
      rw [Option.eq_none_iff_forall_ne_some]
      intro n hn
      have := (parseUint_iff _ _ _).mp hn
      exact h ⟨n, lit, rfl, this⟩
    simp [setUint, this]
  | _ => simp [setUint]

theorem not_isUint_null {max : Nat} {n : Nat} : ¬ IsUint max .null n := by
  rintro ⟨lit, h, _⟩
  cases h

theorem setUint_err (max : Nat) (v : JVal) (old : Nat) :
    (setUint max v old).2 = true ↔ v ≠ .null ∧ ¬ ∃ n, IsUint max v n := by
  by_cases h : ∃ n, IsUint max v n
  · obtain ⟨n, hn⟩ := h
    rw [setUint_acc hn]
    exact ⟨(fun h => by cases h), fun h => absurd ⟨n, hn⟩ h.2⟩
  · rw [(setUint_rej h old).2]
    exact ⟨fun h' => ⟨h', h⟩, fun h' => h'.1⟩

theorem obeys_u16 : Obeys (fun v (n : UInt16) => IsUint 65535 v n.toNat) (fun _ => True)
    (Unacceptable (fun v (n : UInt16) => IsUint 65535 v n.toNat)) (fun _ => setU16) where
  take st v old a h := by
    unfold setU16
    rw [setUint_acc h]
    simp
  keep st v old _ h := by
    unfold setU16
    dsimp only
    have h' : ¬ ∃ n, IsUint 65535 v n := by
      rintro ⟨n, hn⟩
      have : n ≤ 65535 := by obtain ⟨_, _, _, h⟩ := hn; exact h
      refine h ⟨UInt16.ofNat n, ?_⟩
      rw [UInt16.toNat_ofNat', Nat.mod_eq_of_lt (by omega)]
      exact hn
    rw [(setUint_rej h' _).1]
    simp
  err st v old := by
    unfold setU16 Unacceptable
    dsimp only
    rw [setUint_err]
    refine and_congr Iff.rfl (not_congr ⟨?_, fun ⟨n, h⟩ => ⟨_, h⟩⟩)
    rintro ⟨n, hn⟩
    have : n ≤ 65535 := by obtain ⟨_, _, _, h⟩ := hn; exact h
    refine ⟨UInt16.ofNat n, ?_⟩
    rw [UInt16.toNat_ofNat', Nat.mod_eq_of_lt (by omega)]
    exact hn

theorem obeys_u32 : Obeys (fun v (n : UInt32) => IsUint 4294967295 v n.toNat) (fun _ => True)
    (Unacceptable (fun v (n : UInt32) => IsUint 4294967295 v n.toNat)) (fun _ => setU32) where
  take st v old a h := by
    unfold setU32
    rw [setUint_acc h]
    simp
  keep st v old _ h := by
    unfold setU32
    dsimp only
    have h' : ¬ ∃ n, IsUint 4294967295 v n := by
      rintro ⟨n, hn⟩
      have : n ≤ 4294967295 := by obtain ⟨_, _, _, h⟩ := hn; exact h
      refine h ⟨UInt32.ofNat n, ?_⟩
      rw [UInt32.toNat_ofNat', Nat.mod_eq_of_lt (by omega)]
      exact hn
    rw [(setUint_rej h' _).1]
    simp
  err st v old := by
    unfold setU32 Unacceptable
    dsimp only
    rw [setUint_err]
    refine and_congr Iff.rfl (not_congr ⟨?_, fun ⟨n, h⟩ => ⟨_, h⟩⟩)
    rintro ⟨n, hn⟩
    have : n ≤ 4294967295 := by obtain ⟨_, _, _, h⟩ := hn; exact h
    refine ⟨UInt32.ofNat n, ?_⟩
    rw [UInt32.toNat_ofNat', Nat.mod_eq_of_lt (by omega)]
    exact hn

theorem parseInt_iff (lit : Bytes) (n : Int) : parseInt lit = some n ↔ IsInt (.num lit) n := by
  cases lit with
  | nil =>
    constructor
    · intro h; cases h
    · rintro ⟨lit, m, h, ⟨he, _⟩ | ⟨he, _⟩⟩
      · cases he
        exact absurd rfl ((isDecimal_iff _ _).mp h).1
      · cases he
  | cons c ds =>
    unfold parseInt
    dsimp only
    by_cases hc : c.toNat = 45
    · have hc' : c = 45 := UInt8.toNat_inj.mp hc
      subst hc'
      rw [if_pos hc]
      have hnd : ∀ m, ¬ IsDecimal (45 :: ds) m := by
        intro m hm
        have := ((isDecimal_iff _ _).mp hm).2.1
        rw [List.all_cons, Bool.and_eq_true] at this
        exact absurd this.1 (by decide)
      split
      · rename_i h
        rw [Option.some.injEq]
        constructor
        · rintro rfl
          exact ⟨ds, digitsVal ds, (isDecimal_iff _ _).mpr ⟨h.1, h.2.1, rfl⟩, .inr ⟨rfl, rfl, h.2.2⟩⟩
        · rintro ⟨lit, m, hd, ⟨he, _⟩ | ⟨he, rfl, _⟩⟩
          · cases he
            exact absurd hd (hnd m)
          · cases he
            rw [((isDecimal_iff _ _).mp hd).2.2]
      · rename_i h
        constructor
        · intro h'; cases h'
        · rintro ⟨lit, m, hd, ⟨he, _⟩ | ⟨he, rfl, hm⟩⟩
          · cases he
            exact absurd hd (hnd m)
          · cases he
            obtain ⟨h1, h2, h3⟩ := (isDecimal_iff _ _).mp hd
            exact absurd ⟨h1, h2, by rw [h3]; exact hm⟩ h
    · rw [if_neg hc]
      have hno : ∀ lit, JVal.num (c :: ds) ≠ .num (45 :: lit) := by
        intro lit he
        injection he with he
        injection he with he _
        subst he
        exact hc (by decide)
      split
      · rename_i h
        rw [Option.some.injEq]
        constructor
        · rintro rfl
          exact ⟨c :: ds, digitsVal (c :: ds), (isDecimal_iff _ _).mpr ⟨by simp, h.1, rfl⟩, .inl ⟨rfl, rfl, h.2⟩⟩
        · rintro ⟨lit, m, hd, ⟨he, rfl, _⟩ | ⟨he, _⟩⟩
          · cases he
            rw [((isDecimal_iff _ _).mp hd).2.2]
          · exact absurd he (hno lit)
      · rename_i h
        constructor
        · intro h'; cases h'
        · rintro ⟨lit, m, hd, ⟨he, rfl, hm⟩ | ⟨he, _⟩⟩
          · cases he
            obtain ⟨h1, h2, h3⟩ := (isDecimal_iff _ _).mp hd
            exact absurd ⟨h2, by rw [h3]; exact hm⟩ h
          · exact absurd he (hno lit)

theorem obeys_int : Obeys IsInt (fun _ => True) (Unacceptable IsInt) (fun _ => setInt) where
  take st v old a h := by
    have hv : ∃ lit, v = .num lit := by
      obtain ⟨lit, m, _, ⟨rfl, _⟩ | ⟨rfl, _⟩⟩ := h
      · exact ⟨_, rfl⟩
      · exact ⟨_, rfl⟩
    obtain ⟨lit, rfl⟩ := hv
    simp only [setInt, (parseInt_iff lit a).mpr h]
  keep st v old _ h := by
    cases v with
    | num lit =>
      have : parseInt lit = none := by
        rw [Option.eq_none_iff_forall_ne_some]
        intro n hn
        exact h ⟨n, (parseInt_iff _ _).mp hn⟩
      simp [setInt, this]
    | _ => simp [setInt]
  err st v old := by
    unfold Unacceptable
    cases v with
    | num lit =>
      cases hp : parseInt lit with
      | none =>
        simp only [setInt, hp]
        refine ⟨fun _ => ⟨by simp, fun ⟨n, hn⟩ => ?_⟩, fun _ => trivial⟩
        rw [(parseInt_iff _ _).mpr hn] at hp
        cases hp
      | some n =>
        simp only [setInt, hp]
        exact ⟨(fun h => by cases h), fun h => absurd ⟨n, (parseInt_iff _ _).mp hp⟩ h.2⟩
    | null => simp [setInt]
    | _ => simp [setInt, IsInt]

theorem obeys_string : Obeys IsString (fun _ => True) (Unacceptable IsString) (fun _ => setString) where
  take st v old a h := by
    rw [IsString] at h
    subst h
    rfl
  keep st v old _ h := by
    cases v <;> simp_all [setString, IsString]
  err st v old := by
    unfold Unacceptable
    cases v <;> simp_all [setString, IsString]

theorem setByteElems_acc (stale : Nat → UInt8) (old : Bytes) (es : List JVal) (b : Bytes)
    (h : List.Forall₂ (fun e (x : UInt8) => IsUint 255 e x.toNat) es b) (i : Nat) :
    (setByteElems stale old i es).1 = b := by
  induction h generalizing i with
  | nil => rfl
  | cons h _ ih =>
    rw [setByteElems]
    dsimp only
    rw [setUint_acc h, ih]
    simp

theorem setByteElems_err (stale : Nat → UInt8) (old : Bytes) (es : List JVal) (i : Nat) :
    (setByteElems stale old i es).2 = true ↔ ∃ e ∈ es, e ≠ .null ∧ ¬ ∃ n, IsUint 255 e n := by
  induction es generalizing i with
  | nil => simp [setByteElems]
  | cons e es ih =>
    rw [setByteElems]
    dsimp only
    rw [Bool.or_eq_true, setUint_err, ih, List.exists_mem_cons_iff]

theorem forall₂_of_bytes : (es : List JVal) → (¬ ∃ e ∈ es, ¬ ∃ n, IsUint 255 e n) →
    ∃ b, List.Forall₂ (fun e (x : UInt8) => IsUint 255 e x.toNat) es b
  | [], _ => ⟨[], .nil⟩
  | e :: es, h => by
    have he : ∃ n, IsUint 255 e n := by
      apply Classical.byContradiction
      intro h'
      exact h ⟨e, List.mem_cons_self .., h'⟩
    obtain ⟨n, hn⟩ := he
    obtain ⟨b, hb⟩ := forall₂_of_bytes es (fun ⟨x, hx, hx'⟩ => h ⟨x, List.mem_cons_of_mem _ hx, hx'⟩)
    have : n ≤ 255 := by obtain ⟨_, _, _, h⟩ := hn; exact h
    refine ⟨UInt8.ofNat n :: b, .cons ?_ hb⟩
    rw [UInt8.toNat_ofNat', Nat.mod_eq_of_lt (by omega)]
    exact hn

theorem obeys_bytes : Obeys IsBytes (fun v => ¬ MixedArray v) NotBytes setBytes where
  take st v old a h := by
    rcases h with ⟨rfl, rfl⟩ | ⟨s, rfl, hs⟩ | ⟨es, rfl, he⟩
    · rfl
    · simp only [setBytes, (b64Decode_iff _ _).mpr hs]
    · simp only [setBytes]
      exact setByteElems_acc st old es a he 0
  keep st v old hr h := by
    cases v with
    | null => exact absurd ⟨[], .inl ⟨rfl, rfl⟩⟩ h
    | str s =>
      cases hb : b64Decode s with
      | none => simp only [setBytes, hb]
      | some b => exact absurd ⟨b, .inr (.inl ⟨s, rfl, (b64Decode_iff _ _).mp hb⟩)⟩ h
    | arr es =>
      exfalso
      obtain ⟨b, hb⟩ := forall₂_of_bytes es (fun h' => hr ⟨es, rfl, h'⟩)
      exact h ⟨b, .inr (.inr ⟨es, rfl, hb⟩)⟩
    | _ => simp [setBytes]
  err st v old := by
    unfold NotBytes
    cases v with
    | null => simp [setBytes, IsBytes]
    | str s =>
      cases hb : b64Decode s with
      | none => simp [setBytes, hb, IsBytes, ← b64Decode_iff]
      | some b => simp [setBytes, hb, IsBytes, ← b64Decode_iff]
    | arr es =>
      simp only [setBytes, setByteElems_err]
      constructor
      · rintro ⟨e, he, h1, h2⟩
        refine ⟨?_, fun es' h => ?_⟩
        · rintro ⟨b, ⟨h, _⟩ | ⟨s, h, _⟩ | ⟨es', h, hf⟩⟩
          · cases h
          · cases h
          · cases h
            have : ∀ (es : List JVal) (b : Bytes), List.Forall₂ (fun e (x : UInt8) => IsUint 255 e x.toNat) es b →
                ∀ e ∈ es, ∃ n, IsUint 255 e n := by
              intro es b hf
              induction hf with
              | nil => intro e he; cases he
              | cons h _ ih =>
                intro e he
                rcases List.mem_cons.mp he with rfl | he
                · exact ⟨_, h⟩
                · exact ih e he
            exact h2 (this es b hf e he)
        · cases h
          exact ⟨e, he, h1, h2⟩
      · rintro ⟨_, h⟩
        exact h es rfl
    | _ => simp [setBytes, IsBytes]

/-! ## Members -/

/-- The names of the fields differ in more than case. -/
def Distinct {T : Type} (fields : List (JField T)) : Prop :=
  fields.Pairwise (fun f g => fold f.name ≠ fold g.name)

theorem Distinct.unique {T : Type} {fields : List (JField T)} (h : Distinct fields) {f g : JField T}
    (hf : f ∈ fields) (hg : g ∈ fields) (he : fold f.name = fold g.name) : f = g := by
  unfold Distinct at h
  induction h with
  | nil => cases hf
  | @cons a l h1 _ ih =>
    rcases List.mem_cons.mp hf with rfl | hf' <;> rcases List.mem_cons.mp hg with rfl | hg'
    · rfl
    · exact absurd he (h1 g hg')
    · exact absurd he.symm (h1 f hf')
    · exact ih hf' hg'

theorem lookupField_iff {T : Type} {fields : List (JField T)} (h : Distinct fields) (key : GoString) (f : JField T) :
    lookupField fields key = some f ↔ f ∈ fields ∧ fold f.name = fold key := by
  unfold lookupField
  cases h1 : fields.find? (fun f => f.name = key) with
  | some g =>
    have hg : g ∈ fields := List.mem_of_find?_eq_some h1
    have hn : g.name = key := by simpa using List.find?_some h1
    dsimp only
    rw [Option.some.injEq]
    constructor
    · rintro rfl; exact ⟨hg, by rw [hn]⟩
    · rintro ⟨hf, he⟩; exact h.unique hg hf (by rw [hn, he])
  | none =>
    dsimp only
    constructor
    · intro h2
      exact ⟨List.mem_of_find?_eq_some h2, by simpa using List.find?_some h2⟩
    · rintro ⟨hf, he⟩
      cases h2 : fields.find? (fun f => fold f.name = fold key) with
      | none =>
        rw [List.find?_eq_none] at h2
        exact absurd (decide_eq_true he) (h2 f hf)
      | some g =>
        have hg : g ∈ fields := List.mem_of_find?_eq_some h2
        have hn : fold g.name = fold key := by simpa using List.find?_some h2
        rw [h.unique hg hf (hn.trans he.symm)]

theorem LastWins_cons_skip {A : Type} {name : GoString} {acc : JVal → A → Prop} {ms : List (GoString × JVal)}
    {old new : A} {m : GoString × JVal} (h : LastWins name acc ms old new)
    (hm : SameName name m.1 → ¬ ∃ a, acc m.2 a) : LastWins name acc (m :: ms) old new := by
  rcases h with ⟨before, k, v, after, rfl, h⟩ | ⟨h, rfl⟩
  · exact .inl ⟨m :: before, k, v, after, rfl, h⟩
  · refine .inr ⟨fun x hx => ?_, rfl⟩
    rcases List.mem_cons.mp hx with rfl | hx
    · exact hm
    · exact h x hx

theorem LastWins_cons_take {A : Type} {name : GoString} {acc : JVal → A → Prop} {ms : List (GoString × JVal)}
    {old new a : A} {k : GoString} {v : JVal} (h : LastWins name acc ms a new)
    (hk : SameName name k) (hv : acc v a) : LastWins name acc ((k, v) :: ms) old new := by
  rcases h with ⟨before, k', v', after, rfl, h⟩ | ⟨h, rfl⟩
  · exact .inl ⟨(k, v) :: before, k', v', after, rfl, h⟩
  · exact .inl ⟨[], k, v, ms, rfl, hk, hv, h⟩

/-- The value of one field after decoding an object. -/
theorem setMembers_field {T A : Type} {fields : List (JField T)} (hd : Distinct fields) {f : JField T}
    (hf : f ∈ fields) (hn : ∀ c ∈ f.name, c.toNat < 128) (get : T → A) {acc : JVal → A → Prop} {reg bad : JVal → Prop}
    {d : (Nat → UInt8) → JVal → A → A × Bool} (ho : Obeys acc reg bad d)
    (hget : ∀ st v t, get (f.set st v t).1 = (d st v (get t)).1)
    (hother : ∀ g ∈ fields, g.name ≠ f.name → ∀ st v t, get (g.set st v t).1 = get t)
    (stale : Nat → Nat → UInt8) (ms : List (GoString × JVal)) (hreg : ∀ m ∈ ms, SameName f.name m.1 → reg m.2)
    (t : T) : LastWins f.name acc ms (get t) (get (setMembers fields stale ms t).1) := by
  induction ms generalizing t with
  | nil => exact .inr ⟨(fun x hx => by cases hx), rfl⟩
  | cons m ms ih =>
    obtain ⟨k, v⟩ := m
    have ih' := fun t => ih (fun x hx => hreg x (List.mem_cons_of_mem _ hx)) t
    rw [setMembers]
    cases hl : lookupField fields k with
    | none =>
      dsimp only
      refine LastWins_cons_skip (ih' t) (fun hs => ?_)
      have := (lookupField_iff hd k f).mpr ⟨hf, (sameName_iff f.name hn k).mp hs⟩
      rw [hl] at this
      cases this
    | some g =>
      dsimp only
      obtain ⟨hg, he⟩ := (lookupField_iff hd k g).mp hl
      by_cases hgf : g.name = f.name
      · have : g = f := hd.unique hg hf (by rw [hgf])
        subst this
        have hs : SameName g.name k := (sameName_iff g.name hn k).mpr he
        have h := ih' (g.set (stale ms.length) v t).1
        rw [hget] at h
        by_cases ha : ∃ a, acc v a
        · obtain ⟨a, ha⟩ := ha
          rw [ho.take _ v _ a ha] at h
          exact LastWins_cons_take h hs ha
        · rw [ho.keep _ v _ (hreg (k, v) (List.mem_cons_self ..) hs) ha] at h
          exact LastWins_cons_skip h (fun _ => ha)
      · have h := ih' (g.set (stale ms.length) v t).1
        rw [hother g hg hgf] at h
        refine LastWins_cons_skip h (fun hs => ?_)
        have := hd.unique hg hf (he.trans ((sameName_iff f.name hn k).mp hs).symm)
        exact absurd (by rw [this]) hgf

/-- Whether decoding an object records an error. -/
theorem setMembers_err {T : Type} {fields : List (JField T)} (hd : Distinct fields)
    (hn : ∀ f ∈ fields, ∀ c ∈ f.name, c.toNat < 128) (bad : JField T → JVal → Prop)
    (hb : ∀ f ∈ fields, ∀ st v t, (f.set st v t).2 = true ↔ bad f v)
    (stale : Nat → Nat → UInt8) (ms : List (GoString × JVal)) (t : T) :
    (setMembers fields stale ms t).2 = true ↔ ∃ m ∈ ms, ∃ f ∈ fields, SameName f.name m.1 ∧ bad f m.2 := by
  induction ms generalizing t with
  | nil => simp [setMembers]
  | cons m ms ih =>
    obtain ⟨k, v⟩ := m
    rw [setMembers, List.exists_mem_cons_iff]
    cases hl : lookupField fields k with
    | none =>
      dsimp only
      rw [ih]
      constructor
      · exact .inr
      · rintro (⟨f, hf, hs, _⟩ | h)
        · have := (lookupField_iff hd k f).mpr ⟨hf, (sameName_iff f.name (hn f hf) k).mp hs⟩
          rw [hl] at this
          cases this
        · exact h
    | some g =>
      dsimp only
      obtain ⟨hg, he⟩ := (lookupField_iff hd k g).mp hl
      rw [Bool.or_eq_true, ih, hb g hg]
      refine or_congr ⟨fun h => ⟨g, hg, (sameName_iff g.name (hn g hg) k).mpr he, h⟩, ?_⟩ Iff.rfl
      rintro ⟨f, hf, hs, h⟩
      have := hd.unique hf hg (((sameName_iff f.name (hn f hf) k).mp hs).trans he.symm)
      rw [← this]
      exact h

end Migp.Json
