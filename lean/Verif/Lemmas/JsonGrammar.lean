import Verif.Spec.JsonGrammar
import Verif.Lemmas.JsonObject
import Verif.Lemmas.JsonString
/-!
# The scanner accepts exactly the grammar
-/
namespace Migp.Json
open Migp.Spec

/-- Feeding bytes to the scanner. -/
abbrev run (s : Scan) (data : Bytes) : Scan := data.foldl step s

theorem run_cons (s : Scan) (c : UInt8) (data : Bytes) : run s (c :: data) = run (step s c) data := rfl

theorem run_append (s : Scan) (a b : Bytes) : run s (a ++ b) = run (run s a) b := List.foldl_append

/-- The scanner has read a whole value. -/
def Done (s : Scan) : Prop := ∃ v, s.mode = .done v

theorem not_done_bad {st : List Frame} {data : Bytes} {F : Scan} (hF : Done F) : run ⟨st, .bad⟩ data ≠ F := by
  rintro rfl
  obtain ⟨v, hv⟩ := hF
  rw [run, foldl_bad] at hv
  cases hv

/-! ## White space -/

theorem isSpace_iff (c : UInt8) : isSpace c = true ↔ c = 32 ∨ c = 9 ∨ c = 13 ∨ c = 10 := by
  unfold isSpace
  simp only [Bool.or_eq_true, decide_eq_true_eq, ← UInt8.toNat_inj]
  simp [or_assoc]

theorem isWs_cons {c : UInt8} {w : Bytes} (hc : isSpace c = true) (hw : IsWs w) : IsWs (c :: w) := by
  intro x hx
  rcases List.mem_cons.mp hx with rfl | hx
  · exact (isSpace_iff _).mp hc
  · exact hw x hx

theorem isWs_nil : IsWs [] := fun x hx => by cases hx

theorem isWs_of_cons {c : UInt8} {w : Bytes} (h : IsWs (c :: w)) : isSpace c = true ∧ IsWs w :=
  ⟨(isSpace_iff _).mpr (h c List.mem_cons_self), fun x hx => h x (List.mem_cons_of_mem _ hx)⟩

/-- A state that skips white space. -/
theorem run_ws {s : Scan} (hs : ∀ c, isSpace c = true → step s c = s) {w : Bytes} (hw : IsWs w) (data : Bytes) :
    run s (w ++ data) = run s data := by
  induction w with
  | nil => rfl
  | cons c w ih =>
    obtain ⟨h1, h2⟩ := isWs_of_cons hw
    rw [List.cons_append, run_cons, hs c h1, ih h2]

/-- Split off white space. -/
theorem split_ws : (data : Bytes) → ∃ w rest, data = w ++ rest ∧ IsWs w ∧
    ∀ c r, rest = c :: r → isSpace c = false
  | [] => ⟨[], [], rfl, isWs_nil, fun _ _ h => by cases h⟩
  | c :: data => by
    by_cases hc : isSpace c = true
    · obtain ⟨w, rest, rfl, hw, hr⟩ := split_ws data
      exact ⟨c :: w, rest, rfl, isWs_cons hc hw, hr⟩
    · refine ⟨[], c :: data, rfl, isWs_nil, ?_⟩
      intro x r h
      injection h with h _
      subst h
      simpa using hc

/-- A run from a state that skips white space and is not final. -/
theorem run_skip {s : Scan} (hs : ∀ c, isSpace c = true → step s c = s) (hnd : ¬ Done s) {data : Bytes} {F : Scan}
    (hF : Done F) (h : run s data = F) : ∃ w c rest, data = w ++ c :: rest ∧ IsWs w ∧ isSpace c = false ∧
      run (step s c) rest = F := by
  obtain ⟨w, rest, rfl, hw, hr⟩ := split_ws data
  rw [run_ws hs hw] at h
  cases rest with
  | nil => exact absurd hF (by rw [← h]; exact hnd)
  | cons c rest => exact ⟨w, c, rest, rfl, hw, hr c rest rfl, h⟩

theorem value_ws (st : List Frame) (c : UInt8) (h : isSpace c = true) : step ⟨st, .value⟩ c = ⟨st, .value⟩ := by
  simp only [step, beginValue, h, if_true]

theorem valueOrEnd_ws (st : List Frame) (c : UInt8) (h : isSpace c = true) :
    step ⟨st, .valueOrEnd⟩ c = ⟨st, .valueOrEnd⟩ := by simp only [step, h, if_true]

theorem keyOrEnd_ws (st : List Frame) (c : UInt8) (h : isSpace c = true) :
    step ⟨st, .keyOrEnd⟩ c = ⟨st, .keyOrEnd⟩ := by simp only [step, h, if_true]

theorem key_ws (st : List Frame) (c : UInt8) (h : isSpace c = true) : step ⟨st, .key⟩ c = ⟨st, .key⟩ := by
  simp only [step, h, if_true]

theorem colon_ws (st : List Frame) (c : UInt8) (h : isSpace c = true) : step ⟨st, .colon⟩ c = ⟨st, .colon⟩ := by
  simp only [step, h, if_true]

theorem after_ws (st : List Frame) (c : UInt8) (h : isSpace c = true) : step ⟨st, .after⟩ c = ⟨st, .after⟩ := by
  simp only [step, afterValue, h, if_true]

/-! ## Numbers -/

/-- The transitions inside a number. -/
def numNext (st : NumSt) (c : UInt8) : Option NumSt :=
  let isE : Bool := c.toNat = 101 || c.toNat = 69
  match st with
  | .neg => if c.toNat = 48 then some .zero else if isDigit c then some .int else none
  | .zero => if c.toNat = 46 then some .dot else if isE then some .e else none
  | .int => if isDigit c then some .int else if c.toNat = 46 then some .dot else if isE then some .e else none
  | .dot => if isDigit c then some .frac else none
  | .frac => if isDigit c then some .frac else if isE then some .e else none
  | .e => if c.toNat = 43 ∨ c.toNat = 45 then some .eSign else if isDigit c then some .exp else none
  | .eSign => if isDigit c then some .exp else none
  | .exp => if isDigit c then some .exp else none

/-- The states in which a number may end. -/
def numFinal : NumSt → Bool
  | .zero | .int | .frac | .exp => true
  | _ => false

theorem step_num (stack : List Frame) (raw : Bytes) (st : NumSt) (c : UInt8) :
    step ⟨stack, .num raw st⟩ c =
      match numNext st c with
      | some st' => ⟨stack, .num (c :: raw) st'⟩
      | none => if numFinal st then afterNumber (endValue stack (.num raw.reverse)) c else ⟨stack, .bad⟩ := by
  simp only [step, inNumber, numNext]
  cases st <;> dsimp only [numFinal] <;> (repeat' split) <;> simp_all

theorem endValue_mode (stack : List Frame) (v : JVal) :
    (endValue stack v).mode = .after ∨ (endValue stack v).mode = .done v := by
  unfold endValue
  split <;> simp

theorem afterNumber_eq (stack : List Frame) (v : JVal) (c : UInt8) :
    afterNumber (endValue stack v) c = step (endValue stack v) c := by
  rcases endValue_mode stack v with h | h <;> simp [afterNumber, step, h]

/-- What may follow in a number. -/
def numTail : NumSt → Bytes → Prop
  | st, [] => numFinal st = true
  | st, c :: m =>
    match numNext st c with
    | some st' => numTail st' m
    | none => False

theorem num_sound {stack : List Frame} {F : Scan} (hF : Done F) (data raw : Bytes) (st : NumSt)
    (h : run ⟨stack, .num raw st⟩ data = F) : ∃ m rest, data = m ++ rest ∧ numTail st m ∧
      run (endValue stack (.num (raw.reverse ++ m))) rest = F := by
  induction data generalizing raw st with
  | nil =>
    obtain ⟨v, hv⟩ := hF
    rw [← h] at hv
    cases hv
  | cons c data ih =>
    rw [run_cons, step_num] at h
    cases hn : numNext st c with
    | some st' =>
      rw [hn] at h
      obtain ⟨m, rest, rfl, h1, h2⟩ := ih _ _ h
      refine ⟨c :: m, rest, rfl, ?_, ?_⟩
      · rw [numTail, hn]; exact h1
      · rw [List.reverse_cons, List.append_assoc] at h2; exact h2
    | none =>
      rw [hn] at h
      dsimp only at h
      split at h
      · rename_i hf
        refine ⟨[], c :: data, rfl, hf, ?_⟩
        rw [List.append_nil, run_cons, ← afterNumber_eq]
        exact h
      · exact absurd h (not_done_bad hF)

/-- Bytes that may follow a value. -/
def Term (c : UInt8) : Prop := isSpace c = true ∨ c = 44 ∨ c = 93 ∨ c = 125

theorem Term.numNext {c : UInt8} (h : Term c) (st : NumSt) (hf : numFinal st = true) : numNext st c = none := by
  rw [Term, isSpace_iff] at h
  rcases h with (rfl | rfl | rfl | rfl) | rfl | rfl | rfl <;> cases st <;> first | rfl | cases hf

theorem num_complete {stack : List Frame} {c : UInt8} (hc : Term c) (m raw : Bytes) (st : NumSt)
    (h : numTail st m) :
    run ⟨stack, .num raw st⟩ (m ++ [c]) = step (endValue stack (.num (raw.reverse ++ m))) c := by
  induction m generalizing raw st with
  | nil =>
    rw [List.nil_append, run_cons, step_num, hc.numNext st h, List.append_nil, ← afterNumber_eq]
    dsimp only
    rw [if_pos (show numFinal st = true from h)]
    rfl
  | cons x m ih =>
    rw [numTail] at h
    rw [List.cons_append, run_cons, step_num]
    cases hn : numNext st x with
    | none => rw [hn] at h; exact h.elim
    | some st' =>
      rw [hn] at h
      dsimp only
      rw [ih (x :: raw) st' h, List.reverse_cons, List.append_assoc]
      rfl

theorem isDigit_iff' (c : UInt8) : isDigit c = true ↔ IsDigit c := by
  unfold isDigit IsDigit
  simp

theorem tail_exp (m : Bytes) : numTail .exp m ↔ ∀ c ∈ m, IsDigit c := by
  induction m with
  | nil => simp [numTail, numFinal]
  | cons c m ih =>
    rw [numTail, List.forall_mem_cons, ← isDigit_iff']
    by_cases h : isDigit c = true
    · simp only [numNext, h, if_true, true_and]; exact ih
    · simp [numNext, h]

theorem tail_eSign (m : Bytes) : numTail .eSign m ↔ IsDigits m := by
  unfold IsDigits
  cases m with
  | nil => simp [numTail, numFinal]
  | cons c m =>
    rw [numTail, List.forall_mem_cons, ← isDigit_iff']
    by_cases h : isDigit c = true
    · simp only [numNext, h, if_true, true_and]
      rw [tail_exp]
      simp
    · simp [numNext, h]

theorem tail_e (m : Bytes) : numTail .e m ↔
    ∃ sign ds, m = sign ++ ds ∧ (sign = [] ∨ sign = [43] ∨ sign = [45]) ∧ IsDigits ds := by
  cases m with
  | nil =>
    constructor
    · intro h; cases h
    · rintro ⟨sign, ds, h, _, h1, _⟩
      exact absurd (List.append_eq_nil_iff.mp h.symm).2 h1
  | cons c m =>
    rw [numTail]
    by_cases hs : c.toNat = 43 ∨ c.toNat = 45
    · simp only [numNext, hs, if_true]
      rw [tail_eSign]
      have hc : c = 43 ∨ c = 45 := by
        rcases hs with h | h
        · exact .inl (UInt8.toNat_inj.mp h)
        · exact .inr (UInt8.toNat_inj.mp h)
      constructor
      · intro h
        exact ⟨[c], m, rfl, by rcases hc with rfl | rfl <;> simp, h⟩
      · rintro ⟨sign, ds, he, rfl | rfl | rfl, h1⟩
        · rw [List.nil_append] at he
          subst he
          have := h1.2 c List.mem_cons_self
          unfold IsDigit at this
          omega
        · cases he; exact h1
        · cases he; exact h1
    · simp only [numNext, hs, if_false]
      constructor
      · intro h
        by_cases hd : isDigit c = true
        · simp only [hd, if_true] at h
          refine ⟨[], c :: m, rfl, .inl rfl, by simp, ?_⟩
          rw [List.forall_mem_cons, ← isDigit_iff']
          exact ⟨hd, (tail_exp m).mp h⟩
        · simp only [hd, Bool.false_eq_true, if_false] at h
      · rintro ⟨sign, ds, he, rfl | rfl | rfl, h1⟩
        · rw [List.nil_append] at he
          subst he
          have hd := (isDigit_iff' c).mpr (h1.2 c List.mem_cons_self)
          simp only [hd, if_true]
          exact (tail_exp m).mpr (fun x hx => h1.2 x (List.mem_cons_of_mem _ hx))
        · cases he; exact absurd (by decide) hs
        · cases he; exact absurd (by decide) hs

theorem isE_iff (c : UInt8) : ((c.toNat = 101 || c.toNat = 69 : Bool) = true) ↔ (c = 101 ∨ c = 69) := by
  simp only [Bool.or_eq_true, decide_eq_true_eq, ← UInt8.toNat_inj]
  rfl

theorem isExp_cons_e {c : UInt8} {m : Bytes} (hc : c = 101 ∨ c = 69) : IsExp (c :: m) ↔ numTail .e m := by
  rw [tail_e]
  constructor
  · rintro (h | ⟨e, sign, ds, h, _, h1, h2⟩)
    · cases h
    · injection h with _ h
      exact ⟨sign, ds, h, h1, h2⟩
  · rintro ⟨sign, ds, rfl, h1, h2⟩
    exact .inr ⟨c, sign, ds, rfl, hc, h1, h2⟩

theorem not_isExp {c : UInt8} {m : Bytes} (hc : ¬ (c = 101 ∨ c = 69)) : ¬ IsExp (c :: m) := by
  rintro (h | ⟨e, sign, ds, h, h1, _⟩)
  · cases h
  · injection h with h _
    subst h
    exact hc h1

theorem tail_frac (m : Bytes) : numTail .frac m ↔ ∃ ds ex, m = ds ++ ex ∧ (∀ c ∈ ds, IsDigit c) ∧ IsExp ex := by
  induction m with
  | nil => exact ⟨fun _ => ⟨[], [], rfl, (fun _ h => by cases h), .inl rfl⟩, fun _ => rfl⟩
  | cons c m ih =>
    rw [numTail]
    by_cases hd : isDigit c = true
    · simp only [numNext, hd, if_true]
      rw [ih]
      constructor
      · rintro ⟨ds, ex, rfl, h1, h2⟩
        refine ⟨c :: ds, ex, rfl, ?_, h2⟩
        rw [List.forall_mem_cons, ← isDigit_iff']
        exact ⟨hd, h1⟩
      · rintro ⟨ds, ex, he, h1, h2⟩
        cases ds with
        | nil =>
          rw [List.nil_append] at he
          subst he
          refine absurd h2 (not_isExp ?_)
          rintro (rfl | rfl) <;> exact absurd hd (by decide)
        | cons x ds =>
          injection he with _ he
          exact ⟨ds, ex, he, fun y hy => h1 y (List.mem_cons_of_mem _ hy), h2⟩
    · have hnd : ∀ ds ex, c :: m = ds ++ ex → (∀ c ∈ ds, IsDigit c) → ds = [] := by
        intro ds ex he h1
        cases ds with
        | nil => rfl
        | cons x ds =>
          injection he with he _
          subst he
          exact absurd ((isDigit_iff' _).mpr (h1 _ List.mem_cons_self)) hd
      by_cases he : c = 101 ∨ c = 69
      · have he' := (isE_iff c).mpr he
        simp only [numNext, hd, he', if_true, Bool.false_eq_true, if_false]
        rw [← isExp_cons_e he]
        constructor
        · intro h; exact ⟨[], c :: m, rfl, (fun _ h => by cases h), h⟩
        · rintro ⟨ds, ex, h1, h2, h3⟩
          obtain rfl := hnd ds ex h1 h2
          rw [List.nil_append] at h1
          rw [h1]; exact h3
      · have he' : ¬ ((c.toNat = 101 || c.toNat = 69 : Bool) = true) := fun h => he ((isE_iff c).mp h)
        simp only [numNext, hd, he', Bool.false_eq_true, if_false]
        constructor
        · intro h; exact h.elim
        · rintro ⟨ds, ex, h1, h2, h3⟩
          obtain rfl := hnd ds ex h1 h2
          rw [List.nil_append] at h1
          subst h1
          exact not_isExp he h3

theorem tail_dot (m : Bytes) : numTail .dot m ↔ ∃ ds ex, m = ds ++ ex ∧ IsDigits ds ∧ IsExp ex := by
  cases m with
  | nil =>
    constructor
    · intro h; cases h
    · rintro ⟨ds, ex, h, h1, _⟩
      exact absurd (List.append_eq_nil_iff.mp h.symm).1 h1.1
  | cons c m =>
    rw [numTail]
    by_cases hd : isDigit c = true
    · simp only [numNext, hd, if_true]
      rw [tail_frac]
      constructor
      · rintro ⟨ds, ex, rfl, h1, h2⟩
        refine ⟨c :: ds, ex, rfl, ⟨by simp, ?_⟩, h2⟩
        rw [List.forall_mem_cons, ← isDigit_iff']
        exact ⟨hd, h1⟩
      · rintro ⟨ds, ex, he, h1, h2⟩
        cases ds with
        | nil => exact absurd rfl h1.1
        | cons x ds =>
          injection he with _ he
          exact ⟨ds, ex, he, fun y hy => h1.2 y (List.mem_cons_of_mem _ hy), h2⟩
    · simp only [numNext, hd, Bool.false_eq_true, if_false]
      constructor
      · intro h; exact h.elim
      · rintro ⟨ds, ex, he, h1, _⟩
        cases ds with
        | nil => exact absurd rfl h1.1
        | cons x ds =>
          injection he with he _
          subst he
          exact absurd ((isDigit_iff' _).mpr (h1.2 _ List.mem_cons_self)) hd

theorem isFracExp_cons_dot {m : Bytes} : (∃ fr ex, 46 :: m = fr ++ ex ∧ IsFrac fr ∧ IsExp ex) ↔ numTail .dot m := by
  rw [tail_dot]
  constructor
  · rintro ⟨fr, ex, he, rfl | ⟨ds, rfl, h1⟩, h2⟩
    · rw [List.nil_append] at he
      subst he
      exact absurd h2 (not_isExp (by decide))
    · injection he with _ he
      exact ⟨ds, ex, he, h1, h2⟩
  · rintro ⟨ds, ex, rfl, h1, h2⟩
    exact ⟨46 :: ds, ex, rfl, .inr ⟨ds, rfl, h1⟩, h2⟩

/-- A fraction and an exponent that do not begin with a point. -/
theorem isFracExp_cons {c : UInt8} {m : Bytes} (hc : c ≠ 46) :
    (∃ fr ex, c :: m = fr ++ ex ∧ IsFrac fr ∧ IsExp ex) ↔ IsExp (c :: m) := by
  constructor
  · rintro ⟨fr, ex, he, rfl | ⟨ds, rfl, h1⟩, h2⟩
    · rw [List.nil_append] at he
      rw [he]; exact h2
    · injection he with he _
      exact absurd he hc
  · intro h; exact ⟨[], c :: m, rfl, .inl rfl, h⟩

theorem tail_zero (m : Bytes) : numTail .zero m ↔ ∃ fr ex, m = fr ++ ex ∧ IsFrac fr ∧ IsExp ex := by
  cases m with
  | nil => exact ⟨fun _ => ⟨[], [], rfl, .inl rfl, .inl rfl⟩, fun _ => rfl⟩
  | cons c m =>
    rw [numTail]
    by_cases hp : c.toNat = 46
    · obtain rfl : c = 46 := UInt8.toNat_inj.mp hp
      rw [isFracExp_cons_dot]
      rfl
    · rw [isFracExp_cons (fun h => hp (by rw [h]; rfl))]
      by_cases he : c = 101 ∨ c = 69
      · have he' := (isE_iff c).mpr he
        rw [isExp_cons_e he]
        simp only [numNext, hp, he', if_true, if_false]
      · have he' : ¬ ((c.toNat = 101 || c.toNat = 69 : Bool) = true) := fun h => he ((isE_iff c).mp h)
        simp only [numNext, hp, he', Bool.false_eq_true, if_false]
        exact ⟨False.elim, not_isExp he⟩

theorem tail_int (m : Bytes) : numTail .int m ↔
    ∃ ds fr ex, m = ds ++ (fr ++ ex) ∧ (∀ c ∈ ds, IsDigit c) ∧ IsFrac fr ∧ IsExp ex := by
  induction m with
  | nil => exact ⟨fun _ => ⟨[], [], [], rfl, (fun _ h => by cases h), .inl rfl, .inl rfl⟩, fun _ => rfl⟩
  | cons c m ih =>
    by_cases hd : isDigit c = true
    · rw [numTail]
      simp only [numNext, hd, if_true]
      rw [ih]
      constructor
      · rintro ⟨ds, fr, ex, rfl, h1, h2, h3⟩
        refine ⟨c :: ds, fr, ex, rfl, ?_, h2, h3⟩
        rw [List.forall_mem_cons, ← isDigit_iff']
        exact ⟨hd, h1⟩
      · rintro ⟨ds, fr, ex, he, h1, h2, h3⟩
        cases ds with
        | nil =>
          rw [List.nil_append] at he
          exfalso
          have hz := (tail_zero (c :: m)).mpr ⟨fr, ex, he, h2, h3⟩
          rw [numTail] at hz
          have hn : numNext .zero c = none := by
            rw [isDigit_iff', IsDigit] at hd
            simp only [numNext]
            rw [if_neg (by omega), if_neg]
            rw [isE_iff]
            rintro (rfl | rfl) <;> exact absurd hd (by decide)
          rw [hn] at hz
          exact hz
        | cons x ds =>
          injection he with _ he
          exact ⟨ds, fr, ex, he, fun y hy => h1 y (List.mem_cons_of_mem _ hy), h2, h3⟩
    · have hz : numTail .int (c :: m) ↔ numTail .zero (c :: m) := by
        rw [numTail, numTail]
        simp only [numNext, hd]
        rfl
      rw [hz, tail_zero]
      constructor
      · rintro ⟨fr, ex, he, h1, h2⟩
        exact ⟨[], fr, ex, he, (fun _ h => by cases h), h1, h2⟩
      · rintro ⟨ds, fr, ex, he, h1, h2, h3⟩
        cases ds with
        | nil => exact ⟨fr, ex, he, h2, h3⟩
        | cons x ds =>
          injection he with he _
          subst he
          exact absurd ((isDigit_iff' _).mpr (h1 _ List.mem_cons_self)) hd

/-- What follows the first byte of a number. -/
theorem isNumber_iff (lit : Bytes) : IsNumber lit ↔ ∃ c m, lit = c :: m ∧
    ((c = 45 ∧ numTail .neg m) ∨ (c = 48 ∧ numTail .zero m) ∨ (c ≠ 48 ∧ IsDigit c ∧ numTail .int m)) := by
  have unsigned : ∀ lit, (∃ whole frac exp, lit = whole ++ frac ++ exp ∧ IsWhole whole ∧ IsFrac frac ∧ IsExp exp) ↔
      ∃ c m, lit = c :: m ∧ ((c = 48 ∧ numTail .zero m) ∨ (c ≠ 48 ∧ IsDigit c ∧ numTail .int m)) := by
    intro lit
    constructor
    · rintro ⟨whole, frac, exp, rfl, rfl | ⟨h1, h2⟩, h3, h4⟩
      · exact ⟨48, frac ++ exp, rfl, .inl ⟨rfl, (tail_zero _).mpr ⟨frac, exp, rfl, h3, h4⟩⟩⟩
      · cases whole with
        | nil => exact absurd rfl h1.1
        | cons c ds =>
          refine ⟨c, ds ++ (frac ++ exp), by simp, .inr ⟨?_, h1.2 c List.mem_cons_self, ?_⟩⟩
          · rintro rfl; exact h2 rfl
          · exact (tail_int _).mpr ⟨ds, frac, exp, rfl, fun x hx => h1.2 x (List.mem_cons_of_mem _ hx), h3, h4⟩
    · rintro ⟨c, m, rfl, ⟨rfl, h⟩ | ⟨h1, h2, h⟩⟩
      · obtain ⟨fr, ex, rfl, h1, h2⟩ := (tail_zero _).mp h
        exact ⟨[48], fr, ex, rfl, .inl rfl, h1, h2⟩
      · obtain ⟨ds, fr, ex, rfl, h3, h4, h5⟩ := (tail_int _).mp h
        refine ⟨c :: ds, fr, ex, by simp, .inr ⟨⟨by simp, ?_⟩, ?_⟩, h4, h5⟩
        · rw [List.forall_mem_cons]; exact ⟨h2, h3⟩
        · intro he
          rw [List.head?_cons, Option.some.injEq] at he
          exact h1 he
  have neg : ∀ m, numTail .neg m ↔
      ∃ c m', m = c :: m' ∧ ((c = 48 ∧ numTail .zero m') ∨ (c ≠ 48 ∧ IsDigit c ∧ numTail .int m')) := by
    intro m
    cases m with
    | nil =>
      constructor
      · intro h; cases h
      · rintro ⟨_, _, h, _⟩; cases h
    | cons c m =>
      rw [numTail]
      by_cases h0 : c.toNat = 48
      · obtain rfl : c = 48 := UInt8.toNat_inj.mp h0
        constructor
        · intro h; exact ⟨48, m, rfl, .inl ⟨rfl, h⟩⟩
        · rintro ⟨c', m', he, ⟨rfl, h⟩ | ⟨h1, _⟩⟩
          · cases he; exact h
          · injection he with he _
            exact absurd he.symm h1
      · have hc : c ≠ 48 := fun h => h0 (by rw [h]; rfl)
        by_cases hd : isDigit c = true
        · simp only [numNext, h0, hd, if_true, if_false]
          constructor
          · intro h; exact ⟨c, m, rfl, .inr ⟨hc, (isDigit_iff' c).mp hd, h⟩⟩
          · rintro ⟨c', m', he, ⟨rfl, h⟩ | ⟨_, _, h⟩⟩
            · injection he with he _; exact absurd he hc
            · cases he; exact h
        · simp only [numNext, h0, hd, Bool.false_eq_true, if_false]
          constructor
          · intro h; exact h.elim
          · rintro ⟨c', m', he, ⟨rfl, h⟩ | ⟨_, h, _⟩⟩
            · injection he with he _; exact absurd he hc
            · cases he; exact hd ((isDigit_iff' c).mpr h)
  constructor
  · rintro ⟨sign, whole, frac, exp, rfl, rfl | rfl, h⟩
    · obtain ⟨c, m, he, h'⟩ := (unsigned (whole ++ frac ++ exp)).mp ⟨whole, frac, exp, rfl, h⟩
      exact ⟨c, m, he, .inr h'⟩
    · refine ⟨45, whole ++ frac ++ exp, by simp, .inl ⟨rfl, (neg _).mpr ?_⟩⟩
      exact (unsigned _).mp ⟨whole, frac, exp, rfl, h⟩
  · rintro ⟨c, m, rfl, ⟨rfl, h⟩ | h⟩
    · obtain ⟨whole, frac, exp, rfl, h'⟩ := (unsigned m).mpr ((neg m).mp h)
      exact ⟨[45], whole, frac, exp, by simp, .inr rfl, h'⟩
    · obtain ⟨whole, frac, exp, he, h'⟩ := (unsigned (c :: m)).mpr ⟨c, m, rfl, h⟩
      exact ⟨[], whole, frac, exp, by rw [he]; rfl, .inl rfl, h'⟩

/-! ## Strings and literals -/

theorem isHex_iff (c : UInt8) : (fromHexChar c).isSome = true ↔ IsHexDigit c := by
  unfold fromHexChar IsHexDigit
  split
  · simp; omega
  split
  · simp; omega
  split
  · simp; omega
  · simp; omega

theorem escape_iff (c : UInt8) : c ∈ ascii "bfnrt\\/\"" ↔
    (c.toNat = 98 ∨ c.toNat = 102 ∨ c.toNat = 110 ∨ c.toNat = 114 ∨ c.toNat = 116 ∨ c.toNat = 92 ∨
      c.toNat = 47 ∨ c.toNat = 34) := by
  have : ascii "bfnrt\\/\"" = [98, 102, 110, 114, 116, 92, 47, 34] := by decide
  rw [this]
  simp only [List.mem_cons, List.not_mem_nil, or_false, ← UInt8.toNat_inj]
  rfl

theorem chars_complete {m : Bytes} (h : IsChars m) : Stays m := by
  induction h with
  | nil => exact .nil
  | plain h1 h2 h3 _ ih =>
    refine Stays.append (a := [_]) (.plain h1 ?_ ?_) ih
    · intro h; exact h2 (UInt8.toNat_inj.mp h)
    · intro h; exact h3 (UInt8.toNat_inj.mp h)
  | esc h1 _ ih => exact Stays.append (a := [_, _]) (.esc ((escape_iff _).mp h1)) ih
  | uni ha hb hc hd _ ih =>
    exact Stays.append (a := [_, _, _, _, _, _])
      (.u ((isHex_iff _).mpr ha) ((isHex_iff _).mpr hb) ((isHex_iff _).mpr hc) ((isHex_iff _).mpr hd)) ih

theorem step_hex (stack : List Frame) (k : Bool) (raw : Bytes) (n : Nat) (c : UInt8) :
    step ⟨stack, .str k raw (n + 2)⟩ c =
      if (fromHexChar c).isSome then ⟨stack, .str k (c :: raw) (if n + 2 = 5 then 0 else n + 2 + 1)⟩
      else ⟨stack, .bad⟩ := by
  simp only [step, inString]
  rw [if_neg (by omega), if_neg (by omega)]

/-- One hexadecimal digit of an escape. -/
theorem hex_sound {stack : List Frame} {k : Bool} {raw data : Bytes} {n : Nat} {F : Scan} (hF : Done F)
    (h : run ⟨stack, .str k raw (n + 2)⟩ data = F) : ∃ c rest, data = c :: rest ∧ IsHexDigit c ∧
      run ⟨stack, .str k (c :: raw) (if n + 2 = 5 then 0 else n + 2 + 1)⟩ rest = F := by
  cases data with
  | nil =>
    obtain ⟨v, hv⟩ := hF
    rw [← h] at hv
    cases hv
  | cons c rest =>
    rw [run_cons, step_hex] at h
    split at h
    · rename_i hx
      exact ⟨c, rest, rfl, (isHex_iff c).mp hx, h⟩
    · exact absurd h (not_done_bad hF)

theorem chars_sound {stack : List Frame} {k : Bool} {F : Scan} (hF : Done F) (n : Nat) :
    ∀ (data raw : Bytes), data.length ≤ n → run ⟨stack, .str k raw 0⟩ data = F →
      ∃ m rest, data = m ++ 34 :: rest ∧ IsChars m ∧ run (endString stack k (m.reverse ++ raw)) rest = F := by
  induction n with
  | zero =>
    intro data raw hl h
    obtain rfl := List.eq_nil_of_length_eq_zero (Nat.le_zero.mp hl)
    obtain ⟨v, hv⟩ := hF
    rw [← h] at hv
    cases hv
  | succ n ih =>
    intro data raw hl h
    cases data with
    | nil =>
      obtain ⟨v, hv⟩ := hF
      rw [← h] at hv
      cases hv
    | cons c data =>
      rw [List.length_cons] at hl
      rw [run_cons] at h
      simp only [step, inString, if_true] at h
      split at h
      · rename_i hc
        obtain rfl : c = 34 := UInt8.toNat_inj.mp hc
        exact ⟨[], data, rfl, .nil, h⟩
      rename_i h34
      split at h
      · rename_i hc
        obtain rfl : c = 92 := UInt8.toNat_inj.mp hc
        cases data with
        | nil =>
          obtain ⟨v, hv⟩ := hF
          rw [← h] at hv
          cases hv
        | cons e data =>
          rw [List.length_cons] at hl
          rw [run_cons] at h
          simp only [step, inString] at h
          rw [if_neg (by decide), if_pos trivial] at h
          split at h
          · rename_i he
            obtain ⟨m, rest, rfl, h1, h2⟩ := ih data _ (by omega) h
            exact ⟨92 :: e :: m, rest, rfl, .esc ((escape_iff e).mpr he) h1, by simpa using h2⟩
          split at h
          · rename_i he
            obtain rfl : e = 117 := UInt8.toNat_inj.mp he
            obtain ⟨a, d1, rfl, ha, h⟩ := hex_sound (n := 0) hF h
            simp only [Nat.reduceAdd, Nat.reduceEqDiff, if_false] at h
            obtain ⟨b, d2, rfl, hb, h⟩ := hex_sound (n := 1) hF h
            simp only [Nat.reduceAdd, Nat.reduceEqDiff, if_false] at h
            obtain ⟨c, d3, rfl, hc, h⟩ := hex_sound (n := 2) hF h
            simp only [Nat.reduceAdd, Nat.reduceEqDiff, if_false] at h
            obtain ⟨d, d4, rfl, hd, h⟩ := hex_sound (n := 3) hF h
            simp only [Nat.reduceAdd, if_true] at h
            simp only [List.length_cons] at hl
            obtain ⟨m, rest, rfl, h1, h2⟩ := ih d4 _ (by omega) h
            exact ⟨92 :: 117 :: a :: b :: c :: d :: m, rest, rfl, .uni ha hb hc hd h1, by simpa using h2⟩
          · exact absurd h (not_done_bad hF)
      rename_i h92
      split at h
      · exact absurd h (not_done_bad hF)
      · rename_i h32
        obtain ⟨m, rest, rfl, h1, h2⟩ := ih data _ (by omega) h
        refine ⟨c :: m, rest, rfl, .plain (by omega) ?_ ?_ h1, by simpa using h2⟩
        · rintro rfl; exact h34 (by decide)
        · rintro rfl; exact h92 (by decide)

theorem lit_sound {stack : List Frame} {F : Scan} (hF : Done F) (v : JVal) (lit data : Bytes) (hne : lit ≠ [])
    (h : run ⟨stack, .lit lit v⟩ data = F) : ∃ rest, data = lit ++ rest ∧ run (endValue stack v) rest = F := by
  induction lit generalizing data with
  | nil => exact absurd rfl hne
  | cons x xs ih =>
    cases data with
    | nil =>
      obtain ⟨v, hv⟩ := hF
      rw [← h] at hv
      cases hv
    | cons c data =>
      rw [run_cons] at h
      simp only [step] at h
      split at h
      · rename_i hc
        obtain rfl : c = x := UInt8.toNat_inj.mp hc
        split at h
        · rename_i hx
          subst hx
          exact ⟨data, rfl, h⟩
        · rename_i hx
          obtain ⟨rest, rfl, h'⟩ := ih data hx h
          clear h; have h := h'; clear h'
          exact ⟨rest, rfl, h⟩
      · exact absurd h (not_done_bad hF)

/-! ## Values: what is accepted is in the grammar -/

theorem not_done_value (st : List Frame) : ¬ Done ⟨st, .value⟩ := fun ⟨_, h⟩ => by cases h
theorem not_done_valueOrEnd (st : List Frame) : ¬ Done ⟨st, .valueOrEnd⟩ := fun ⟨_, h⟩ => by cases h
theorem not_done_keyOrEnd (st : List Frame) : ¬ Done ⟨st, .keyOrEnd⟩ := fun ⟨_, h⟩ => by cases h
theorem not_done_key (st : List Frame) : ¬ Done ⟨st, .key⟩ := fun ⟨_, h⟩ => by cases h
theorem not_done_colon (st : List Frame) : ¬ Done ⟨st, .colon⟩ := fun ⟨_, h⟩ => by cases h
theorem not_done_after (st : List Frame) : ¬ Done ⟨st, .after⟩ := fun ⟨_, h⟩ => by cases h

/-- Reading a value. -/
def SoundV (n : Nat) : Prop := ∀ (data : Bytes) (st : List Frame) (F : Scan), data.length ≤ n → Done F →
  run ⟨st, .value⟩ data = F → ∃ w b rest v, data = w ++ b ++ rest ∧ IsWs w ∧ IsValue (10000 - st.length) b v ∧
    b ≠ [] ∧ run (endValue st v) rest = F

/-- Reading elements. -/
def SoundE (n : Nat) : Prop := ∀ (data : Bytes) (st : List Frame) (es : List JVal) (F : Scan), data.length ≤ n → Done F →
  run ⟨.arr es :: st, .value⟩ data = F → ∃ b es' rest, data = b ++ 93 :: rest ∧
    IsElems (10000 - (st.length + 1)) b es' ∧ run (endValue st (.arr (es.reverse ++ es'))) rest = F

/-- Reading members. -/
def SoundM (n : Nat) : Prop := ∀ (data : Bytes) (st : List Frame) (k : GoString) (ms : List (GoString × JVal)) (F : Scan),
  data.length ≤ n → Done F → run ⟨.obj k ms :: st, .key⟩ data = F → ∃ b ms' rest, data = b ++ 125 :: rest ∧
    IsMembers (10000 - (st.length + 1)) b ms' ∧ run (endValue st (.obj (ms.reverse ++ ms'))) rest = F

theorem push_sound {st : List Frame} {f : Frame} {m : Mode} {data : Bytes} {F : Scan} (hF : Done F)
    (h : run (push st f m) data = F) : st.length + 1 ≤ 10000 ∧ run ⟨f :: st, m⟩ data = F := by
  unfold push maxDepth at h
  split at h
  · exact ⟨by assumption, h⟩
  · exact absurd h (not_done_bad hF)

theorem soundV {n : Nat} (hE : ∀ m < n, SoundE m) (hM : ∀ m < n, SoundM m) : SoundV n := by
  intro data st F hl hF h
  obtain ⟨w, c, rest, rfl, hw, hc, h'⟩ := run_skip (value_ws st) (not_done_value st) hF h
  clear h; have h := h'; clear h'
  have hl' : rest.length < n := by
    rw [List.length_append, List.length_cons] at hl
    omega
  simp only [step, beginValue, hc, Bool.false_eq_true, if_false] at h
  split at h
  · -- object
    rename_i hx
    obtain rfl : c = 123 := UInt8.toNat_inj.mp hx
    obtain ⟨hd, h'⟩ := push_sound hF h
    clear h; have h := h'; clear h'
    obtain ⟨w2, c2, rest2, he, hw2, hc2, h2⟩ := run_skip (keyOrEnd_ws _) (not_done_keyOrEnd _) hF h
    simp only [step, hc2, Bool.false_eq_true, if_false] at h2
    have hdep : 10000 - st.length = 10000 - (st.length + 1) + 1 := by omega
    split at h2
    · rename_i hx
      obtain rfl : c2 = 125 := UInt8.toNat_inj.mp hx
      refine ⟨w, [123] ++ w2 ++ [125], rest2, .obj [], by rw [he]; simp, hw, ?_, by simp, h2⟩
      rw [hdep]
      exact .obj0 hw2
    · split at h2
      · rename_i hx
        obtain rfl : c2 = 34 := UInt8.toNat_inj.mp hx
        have hk : run ⟨.obj [] [] :: st, .key⟩ rest = F := by
          rw [he, run_ws (key_ws _) hw2, run_cons]
          exact h2
        obtain ⟨b, ms', rest3, rfl, hb, h3⟩ := hM rest.length hl' rest st [] [] F (Nat.le_refl _) hF hk
        refine ⟨w, [123] ++ b ++ [125], rest3, .obj ms', by simp, hw, ?_, by simp, h3⟩
        rw [hdep]
        exact .obj hb
      · exact absurd h2 (not_done_bad hF)
  split at h
  · -- array
    rename_i hx
    obtain rfl : c = 91 := UInt8.toNat_inj.mp hx
    obtain ⟨hd, h'⟩ := push_sound hF h
    clear h; have h := h'; clear h'
    obtain ⟨w2, c2, rest2, he, hw2, hc2, h2⟩ := run_skip (valueOrEnd_ws _) (not_done_valueOrEnd _) hF h
    simp only [step, hc2, Bool.false_eq_true, if_false] at h2
    have hdep : 10000 - st.length = 10000 - (st.length + 1) + 1 := by omega
    split at h2
    · rename_i hx
      obtain rfl : c2 = 93 := UInt8.toNat_inj.mp hx
      refine ⟨w, [91] ++ w2 ++ [93], rest2, .arr [], by rw [he]; simp, hw, ?_, by simp, h2⟩
      rw [hdep]
      exact .arr0 hw2
    · have hk : run ⟨.arr [] :: st, .value⟩ rest = F := by
        rw [he, run_ws (value_ws _) hw2, run_cons]
        exact h2
      obtain ⟨b, es', rest3, rfl, hb, h3⟩ := hE rest.length hl' rest st [] F (Nat.le_refl _) hF hk
      refine ⟨w, [91] ++ b ++ [93], rest3, .arr es', by simp, hw, ?_, by simp, h3⟩
      rw [hdep]
      exact .arr hb
  split at h
  · -- string
    rename_i hx
    obtain rfl : c = 34 := UInt8.toNat_inj.mp hx
    obtain ⟨m, rest2, rfl, hm, h'⟩ := chars_sound hF rest.length rest [] (Nat.le_refl _) h
    clear h; have h := h'; clear h'
    refine ⟨w, [34] ++ m ++ [34], rest2, .str (unquote m), by simp, hw, .str (stringIs_unquote hm), by simp, ?_⟩
    simpa [endString] using h
  have number : ∀ (s : NumSt), (∀ m, numTail s m → IsNumber (c :: m)) → run ⟨st, .num [c] s⟩ rest = F →
      ∃ w' b rest' v, w ++ c :: rest = w' ++ b ++ rest' ∧ IsWs w' ∧ IsValue (10000 - st.length) b v ∧
        b ≠ [] ∧ run (endValue st v) rest' = F := by
    intro s hs h
    obtain ⟨m, rest2, rfl, hm, h'⟩ := num_sound hF rest [c] s h
    clear h; have h := h'; clear h'
    exact ⟨w, c :: m, rest2, .num (c :: m), by simp, hw, .num (hs m hm), by simp, h⟩
  split at h
  · rename_i hx
    obtain rfl : c = 45 := UInt8.toNat_inj.mp hx
    exact number .neg (fun m hm => (isNumber_iff _).mpr ⟨45, m, rfl, .inl ⟨rfl, hm⟩⟩) h
  split at h
  · rename_i hx
    obtain rfl : c = 48 := UInt8.toNat_inj.mp hx
    exact number .zero (fun m hm => (isNumber_iff _).mpr ⟨48, m, rfl, .inr (.inl ⟨rfl, hm⟩)⟩) h
  split at h
  · rename_i h48 hx
    exact number .int (fun m hm => (isNumber_iff _).mpr ⟨c, m, rfl, .inr (.inr
      ⟨by rintro rfl; exact h48 (by decide), (isDigit_iff' c).mp hx, hm⟩)⟩) h
  split at h
  · rename_i hx
    obtain rfl : c = 116 := UInt8.toNat_inj.mp hx
    obtain ⟨rest2, rfl, h'⟩ := lit_sound hF _ _ _ (by decide) h
    clear h; have h := h'; clear h'
    exact ⟨w, ascii "true", rest2, .bool true, by simp; rfl, hw, .true, by decide, h⟩
  split at h
  · rename_i hx
    obtain rfl : c = 102 := UInt8.toNat_inj.mp hx
    obtain ⟨rest2, rfl, h'⟩ := lit_sound hF _ _ _ (by decide) h
    clear h; have h := h'; clear h'
    exact ⟨w, ascii "false", rest2, .bool false, by simp; rfl, hw, .false, by decide, h⟩
  split at h
  · rename_i hx
    obtain rfl : c = 110 := UInt8.toNat_inj.mp hx
    obtain ⟨rest2, rfl, h'⟩ := lit_sound hF _ _ _ (by decide) h
    clear h; have h := h'; clear h'
    exact ⟨w, ascii "null", rest2, .null, by simp; rfl, hw, .null, by decide, h⟩
  · exact absurd h (not_done_bad hF)

theorem soundE {n : Nat} (hV : SoundV n) (hE : ∀ m < n, SoundE m) : SoundE n := by
  intro data st es F hl hF h
  obtain ⟨w, b, rest, v, rfl, hw, hb, hne, h'⟩ := hV data _ F hl hF h
  clear h; have h := h'; clear h'
  obtain ⟨w2, c, rest2, rfl, hw2, hc, h'⟩ := run_skip (after_ws _) (not_done_after _) hF h
  clear h; have h := h'; clear h'
  simp only [step, afterValue, hc, Bool.false_eq_true, if_false] at h
  split at h
  · rename_i hx
    obtain rfl : c = 44 := UInt8.toNat_inj.mp hx
    have hlt : rest2.length < n := by
      simp only [List.length_append, List.length_cons] at hl
      omega
    obtain ⟨b', es', rest3, rfl, hb', h'⟩ := hE rest2.length hlt rest2 st (v :: es) F (Nat.le_refl _) hF h
    clear h; have h := h'; clear h'
    refine ⟨w ++ b ++ w2 ++ [44] ++ b', v :: es', rest3, by simp, .more hw hb hw2 hb', ?_⟩
    simpa using h
  split at h
  · rename_i hx
    obtain rfl : c = 93 := UInt8.toNat_inj.mp hx
    refine ⟨w ++ b ++ w2, [v], rest2, by simp, .one hw hb hw2, ?_⟩
    simpa using h
  · exact absurd h (not_done_bad hF)

theorem soundM {n : Nat} (hV : ∀ m < n, SoundV m) (hM : ∀ m < n, SoundM m) : SoundM n := by
  intro data st k0 ms F hl hF h
  obtain ⟨w1, c, r1, rfl, hw1, hc, h'⟩ := run_skip (key_ws _) (not_done_key _) hF h
  clear h; have h := h'; clear h'
  simp only [step, hc, Bool.false_eq_true, if_false] at h
  split at h
  · rename_i hx
    obtain rfl : c = 34 := UInt8.toNat_inj.mp hx
    obtain ⟨k, r2, rfl, hk, h'⟩ := chars_sound hF r1.length r1 [] (Nat.le_refl _) h
    clear h; have h := h'; clear h'
    rw [List.append_nil] at h
    simp only [endString, if_true, List.reverse_reverse] at h
    obtain ⟨w2, c, r3, rfl, hw2, hc, h'⟩ := run_skip (colon_ws _) (not_done_colon _) hF h
    clear h; have h := h'; clear h'
    simp only [step, hc, Bool.false_eq_true, if_false] at h
    split at h
    · rename_i hx
      obtain rfl : c = 58 := UInt8.toNat_inj.mp hx
      have hlt : r3.length < n := by
        simp only [List.length_append, List.length_cons] at hl
        omega
      obtain ⟨w3, b, r4, v, rfl, hw3, hb, hne, h'⟩ := hV r3.length hlt r3 _ F (Nat.le_refl _) hF h
      clear h; have h := h'; clear h'
      obtain ⟨w4, c, r5, rfl, hw4, hc, h'⟩ := run_skip (after_ws _) (not_done_after _) hF h
      clear h; have h := h'; clear h'
      simp only [step, afterValue, hc, Bool.false_eq_true, if_false] at h
      split at h
      · rename_i hx
        obtain rfl : c = 44 := UInt8.toNat_inj.mp hx
        have hlt : r5.length < n := by
          simp only [List.length_append, List.length_cons] at hl
          omega
        obtain ⟨b', ms', r6, rfl, hb', h'⟩ := hM r5.length hlt r5 st _ _ F (Nat.le_refl _) hF h
        clear h; have h := h'; clear h'
        refine ⟨w1 ++ ([34] ++ k ++ [34]) ++ w2 ++ [58] ++ w3 ++ b ++ w4 ++ [44] ++ b', (unquote k, v) :: ms', r6,
          by simp, .more hw1 (stringIs_unquote hk) hw2 hw3 hb hw4 hb', ?_⟩
        simpa using h
      split at h
      · rename_i hx
        obtain rfl : c = 125 := UInt8.toNat_inj.mp hx
        refine ⟨w1 ++ ([34] ++ k ++ [34]) ++ w2 ++ [58] ++ w3 ++ b ++ w4, [(unquote k, v)], r5,
          by simp, .one hw1 (stringIs_unquote hk) hw2 hw3 hb hw4, ?_⟩
        simpa using h
      · exact absurd h (not_done_bad hF)
    · exact absurd h (not_done_bad hF)
  · exact absurd h (not_done_bad hF)

theorem sound (n : Nat) : SoundV n ∧ SoundE n ∧ SoundM n := by
  induction n using Nat.strongRecOn with
  | _ n ih =>
    have hV := soundV (fun m hm => (ih m hm).2.1) (fun m hm => (ih m hm).2.2)
    exact ⟨hV, soundE hV (fun m hm => (ih m hm).2.1), soundM (fun m hm => (ih m hm).1) (fun m hm => (ih m hm).2.2)⟩

/-! ## Values: what is in the grammar is accepted -/

theorem first_byte {d : Nat} {b : Bytes} {v : JVal} (h : IsValue d b v) :
    ∃ c r, b = c :: r ∧ isSpace c = false ∧ c ≠ 93 := by
  cases h with
  | null => exact ⟨110, _, rfl, by decide, by decide⟩
  | true => exact ⟨116, _, rfl, by decide, by decide⟩
  | false => exact ⟨102, _, rfl, by decide, by decide⟩
  | num hn =>
    obtain ⟨c, m, rfl, h⟩ := (isNumber_iff _).mp hn
    refine ⟨c, m, rfl, ?_, ?_⟩
    · refine isSpace_false ?_
      rcases h with ⟨rfl, _⟩ | ⟨rfl, _⟩ | ⟨_, h, _⟩
      · decide
      · decide
      · unfold IsDigit at h; omega
    · rintro rfl
      rcases h with ⟨h, _⟩ | ⟨h, _⟩ | ⟨_, h, _⟩
      · exact absurd h (by decide)
      · exact absurd h (by decide)
      · exact absurd h (by unfold IsDigit; decide)
  | str _ => exact ⟨34, _, rfl, by decide, by decide⟩
  | arr0 _ => exact ⟨91, _, rfl, by decide, by decide⟩
  | arr _ => exact ⟨91, _, rfl, by decide, by decide⟩
  | obj0 _ => exact ⟨123, _, rfl, by decide, by decide⟩
  | obj _ => exact ⟨123, _, rfl, by decide, by decide⟩

theorem elems_first {d : Nat} {b : Bytes} {es : List JVal} (h : IsElems d b es) :
    ∃ w c r, b = w ++ c :: r ∧ IsWs w ∧ isSpace c = false ∧ c ≠ 93 := by
  cases h with
  | one hw hv _ =>
    obtain ⟨c, r, rfl, h1, h2⟩ := first_byte hv
    exact ⟨_, c, _, by simp; rfl, hw, h1, h2⟩
  | more hw hv _ _ =>
    obtain ⟨c, r, rfl, h1, h2⟩ := first_byte hv
    exact ⟨_, c, _, by simp; rfl, hw, h1, h2⟩

theorem members_first {d : Nat} {b : Bytes} {ms : List (GoString × JVal)} (h : IsMembers d b ms) :
    ∃ w r, b = w ++ 34 :: r ∧ IsWs w := by
  cases h with
  | one hw => exact ⟨_, _, by simp; rfl, hw⟩
  | more hw => exact ⟨_, _, by simp; rfl, hw⟩

theorem push_ok {st : List Frame} {f : Frame} {m : Mode} (h : st.length + 1 ≤ 10000) : push st f m = ⟨f :: st, m⟩ := by
  unfold push maxDepth
  rw [if_pos h]

theorem valueOrEnd_elems {d : Nat} {b : Bytes} {es : List JVal} (h : IsElems d b es) (st : List Frame) (t : Bytes) :
    run ⟨st, .valueOrEnd⟩ (b ++ t) = run ⟨st, .value⟩ (b ++ t) := by
  obtain ⟨w, c, r, rfl, hw, h1, h2⟩ := elems_first h
  rw [List.append_assoc, run_ws (valueOrEnd_ws st) hw, run_ws (value_ws st) hw, List.cons_append, run_cons, run_cons]
  congr 1
  have : ¬ c.toNat = 93 := fun h => h2 (UInt8.toNat_inj.mp h)
  simp only [step, h1, this, Bool.false_eq_true, if_false]

theorem keyOrEnd_members {d : Nat} {b : Bytes} {ms : List (GoString × JVal)} (h : IsMembers d b ms) (st : List Frame)
    (t : Bytes) : run ⟨st, .keyOrEnd⟩ (b ++ t) = run ⟨st, .key⟩ (b ++ t) := by
  obtain ⟨w, r, rfl, hw⟩ := members_first h
  rw [List.append_assoc, run_ws (keyOrEnd_ws st) hw, run_ws (key_ws st) hw]
  rfl

theorem term_space {c : UInt8} (h : isSpace c = true) : Term c := .inl h

/-- The byte after `w`, if `c` comes after `w`. -/
theorem head_term {w : Bytes} (hw : IsWs w) {c : UInt8} (hc : Term c) : ∃ x r, w ++ [c] = x :: r ∧ Term x := by
  cases w with
  | nil => exact ⟨c, [], rfl, hc⟩
  | cons x w => exact ⟨x, w ++ [c], rfl, .inl (isWs_of_cons hw).1⟩

theorem run_key {k : Bytes} (hk : IsChars k) (k0 : GoString) (ms : List (GoString × JVal)) (st : List Frame) (t : Bytes) :
    run ⟨.obj k0 ms :: st, .key⟩ ([34] ++ k ++ [34] ++ t) = run ⟨.obj (unquote k) ms :: st, .colon⟩ t := by
  have h0 : step ⟨.obj k0 ms :: st, .key⟩ 34 = ⟨.obj k0 ms :: st, .str true [] 0⟩ := rfl
  rw [List.append_assoc, List.append_assoc, List.singleton_append, run_cons, h0, run_append]
  have h1 := chars_complete hk (.obj k0 ms :: st) true []
  rw [List.append_nil] at h1
  rw [show run ⟨.obj k0 ms :: st, .str true [] 0⟩ k = _ from h1, List.singleton_append, run_cons]
  congr 1
  simp [step, inString, endString]

mutual
theorem completeV {d : Nat} {b : Bytes} {v : JVal} (h : IsValue d b v) (st : List Frame) (c : UInt8)
    (hd : st.length + d ≤ 10000) (hc : Term c) : run ⟨st, .value⟩ (b ++ [c]) = step (endValue st v) c := by
  cases h with
  | null => rfl
  | true => rfl
  | false => rfl
  | num hn =>
    obtain ⟨x, m, rfl, h⟩ := (isNumber_iff _).mp hn
    rw [List.cons_append, run_cons]
    rcases h with ⟨rfl, h⟩ | ⟨rfl, h⟩ | ⟨h48, hdig, h⟩
    · exact num_complete hc m [45] .neg h
    · exact num_complete hc m [48] .zero h
    · have hs : step ⟨st, .value⟩ x = ⟨st, .num [x] .int⟩ :=
        step_value_digit st ((isDigit_iff' x).mpr hdig) (fun h => h48 (UInt8.toNat_inj.mp h))
      rw [hs]
      exact num_complete hc m [x] .int h
  | @str _ raw s hr =>
    obtain ⟨hr2, rfl⟩ := stringIs_inv hr
    have h0 : step ⟨st, .value⟩ 34 = ⟨st, .str false [] 0⟩ := rfl
    rw [List.append_assoc, List.append_assoc, List.singleton_append, run_cons, h0, run_append]
    have h1 := chars_complete hr2 st false []
    rw [List.append_nil] at h1
    rw [show run ⟨st, .str false [] 0⟩ raw = _ from h1, List.singleton_append, run_cons, run_cons]
    simp [step, inString, endString]
  | @arr0 d w hw =>
    have h0 : step ⟨st, .value⟩ 91 = ⟨.arr [] :: st, .valueOrEnd⟩ := by
      show push st (.arr []) .valueOrEnd = _
      exact push_ok (by omega)
    rw [List.append_assoc, List.append_assoc, List.singleton_append, run_cons, h0, run_ws (valueOrEnd_ws _) hw]
    rfl
  | @arr d b es he =>
    have h0 : step ⟨st, .value⟩ 91 = ⟨.arr [] :: st, .valueOrEnd⟩ := by
      show push st (.arr []) .valueOrEnd = _
      exact push_ok (by omega)
    have ih := completeE he st [] (by omega)
    rw [List.append_assoc, List.append_assoc, List.singleton_append, run_cons, h0, valueOrEnd_elems he,
      ← List.append_assoc, run_append, ih]
    rfl
  | @obj0 d w hw =>
    have h0 : step ⟨st, .value⟩ 123 = ⟨.obj [] [] :: st, .keyOrEnd⟩ := by
      show push st (.obj [] []) .keyOrEnd = _
      exact push_ok (by omega)
    rw [List.append_assoc, List.append_assoc, List.singleton_append, run_cons, h0, run_ws (keyOrEnd_ws _) hw]
    rfl
  | @obj d b ms he =>
    have h0 : step ⟨st, .value⟩ 123 = ⟨.obj [] [] :: st, .keyOrEnd⟩ := by
      show push st (.obj [] []) .keyOrEnd = _
      exact push_ok (by omega)
    have ih := completeM he st [] [] (by omega)
    rw [List.append_assoc, List.append_assoc, List.singleton_append, run_cons, h0, keyOrEnd_members he,
      ← List.append_assoc, run_append, ih]
    rfl
theorem completeE {d : Nat} {b : Bytes} {es' : List JVal} (h : IsElems d b es') (st : List Frame) (es : List JVal)
    (hd : st.length + 1 + d ≤ 10000) :
    run ⟨.arr es :: st, .value⟩ (b ++ [93]) = endValue st (.arr (es.reverse ++ es')) := by
  cases h with
  | @one _ w1 b w2 v hw1 hv hw2 =>
    obtain ⟨x, r, hx, hT⟩ := head_term hw2 (c := 93) (.inr (.inr (.inl rfl)))
    have ih := completeV hv (.arr es :: st) x (by rw [List.length_cons]; omega) hT
    rw [List.append_assoc, List.append_assoc, run_ws (value_ws _) hw1, hx,
      show b ++ x :: r = (b ++ [x]) ++ r by simp, run_append, ih, ← run_cons, ← hx]
    show run ⟨.arr (v :: es) :: st, .after⟩ (w2 ++ [93]) = _
    rw [run_ws (after_ws _) hw2, ← List.reverse_cons]
    rfl
  | @more _ w1 b w2 rest v es2 hw1 hv hw2 he =>
    obtain ⟨x, r, hx, hT⟩ := head_term hw2 (c := 44) (.inr (.inl rfl))
    have ih := completeV hv (.arr es :: st) x (by rw [List.length_cons]; omega) hT
    have ih2 := completeE he st (v :: es) hd
    rw [List.reverse_cons, List.append_assoc] at ih2
    rw [show w1 ++ b ++ w2 ++ [44] ++ rest ++ [93] = w1 ++ (b ++ ((w2 ++ [44]) ++ (rest ++ [93]))) by simp,
      run_ws (value_ws _) hw1, hx,
      show b ++ (x :: r ++ (rest ++ [93])) = (b ++ [x]) ++ (r ++ (rest ++ [93])) by simp, run_append, ih, ← run_cons,
      show x :: (r ++ (rest ++ [93])) = (x :: r) ++ (rest ++ [93]) from rfl, ← hx]
    show run ⟨.arr (v :: es) :: st, .after⟩ (w2 ++ [44] ++ (rest ++ [93])) = _
    rw [List.append_assoc, run_ws (after_ws _) hw2]
    exact ih2
theorem completeM {d : Nat} {b : Bytes} {ms' : List (GoString × JVal)} (h : IsMembers d b ms') (st : List Frame)
    (k0 : GoString) (ms : List (GoString × JVal)) (hd : st.length + 1 + d ≤ 10000) :
    run ⟨.obj k0 ms :: st, .key⟩ (b ++ [125]) = endValue st (.obj (ms.reverse ++ ms')) := by
  cases h with
  | @one _ w1 k w2 w3 b w4 key v hw1 hk hw2 hw3 hv hw4 =>
    obtain ⟨hk2, rfl⟩ := stringIs_inv hk
    obtain ⟨x, r, hx, hT⟩ := head_term hw4 (c := 125) (.inr (.inr (.inr rfl)))
    have ih := completeV hv (.obj (unquote k) ms :: st) x (by rw [List.length_cons]; omega) hT
    have hcol : ∀ t, run ⟨.obj (unquote k) ms :: st, .colon⟩ ([58] ++ t) = run ⟨.obj (unquote k) ms :: st, .value⟩ t :=
      fun _ => rfl
    rw [show w1 ++ ([34] ++ k ++ [34]) ++ w2 ++ [58] ++ w3 ++ b ++ w4 ++ [125] =
        w1 ++ (([34] ++ k ++ [34]) ++ (w2 ++ ([58] ++ (w3 ++ (b ++ (w4 ++ [125])))))) by simp,
      run_ws (key_ws _) hw1, run_key hk2, run_ws (colon_ws _) hw2, hcol, run_ws (value_ws _) hw3, hx,
      show b ++ x :: r = (b ++ [x]) ++ r by simp, run_append, ih, ← run_cons, ← hx]
    show run ⟨.obj (unquote k) ((unquote k, v) :: ms) :: st, .after⟩ (w4 ++ [125]) = _
    rw [run_ws (after_ws _) hw4, ← List.reverse_cons]
    rfl
  | @more _ w1 k w2 w3 b w4 rest key v ms2 hw1 hk hw2 hw3 hv hw4 hm =>
    obtain ⟨hk2, rfl⟩ := stringIs_inv hk
    obtain ⟨x, r, hx, hT⟩ := head_term hw4 (c := 44) (.inr (.inl rfl))
    have ih := completeV hv (.obj (unquote k) ms :: st) x (by rw [List.length_cons]; omega) hT
    have ih2 := completeM hm st (unquote k) ((unquote k, v) :: ms) hd
    rw [List.reverse_cons, List.append_assoc] at ih2
    have hcol : ∀ t, run ⟨.obj (unquote k) ms :: st, .colon⟩ ([58] ++ t) = run ⟨.obj (unquote k) ms :: st, .value⟩ t :=
      fun _ => rfl
    rw [show w1 ++ ([34] ++ k ++ [34]) ++ w2 ++ [58] ++ w3 ++ b ++ w4 ++ [44] ++ rest ++ [125] =
        w1 ++ (([34] ++ k ++ [34]) ++ (w2 ++ ([58] ++ (w3 ++ (b ++ ((w4 ++ [44]) ++ (rest ++ [125]))))))) by simp,
      run_ws (key_ws _) hw1, run_key hk2, run_ws (colon_ws _) hw2, hcol, run_ws (value_ws _) hw3, hx,
      show b ++ (x :: r ++ (rest ++ [125])) = (b ++ [x]) ++ (r ++ (rest ++ [125])) by simp, run_append, ih, ← run_cons,
      show x :: (r ++ (rest ++ [125])) = (x :: r) ++ (rest ++ [125]) from rfl, ← hx]
    show run ⟨.obj (unquote k) ((unquote k, v) :: ms) :: st, .after⟩ (w4 ++ [44] ++ (rest ++ [125])) = _
    rw [List.append_assoc, run_ws (after_ws _) hw4]
    exact ih2
end

theorem done_ws (st : List Frame) (v : JVal) (c : UInt8) (h : isSpace c = true) :
    step ⟨st, .done v⟩ c = ⟨st, .done v⟩ := by simp only [step, h, if_true]

theorem run_done {st : List Frame} {v v' : JVal} {data : Bytes} (h : (run ⟨st, .done v⟩ data).mode = .done v') :
    IsWs data ∧ v' = v := by
  induction data with
  | nil =>
    cases h
    exact ⟨isWs_nil, rfl⟩
  | cons c data ih =>
    rw [run_cons] at h
    by_cases hc : isSpace c = true
    · rw [done_ws _ _ _ hc] at h
      obtain ⟨h1, h2⟩ := ih h
      exact ⟨isWs_cons hc h1, h2⟩
    · simp only [step, hc] at h
      rw [if_neg (by decide), run, foldl_bad] at h
      cases h

theorem isWs_append {a b : Bytes} : IsWs (a ++ b) ↔ IsWs a ∧ IsWs b := by
  unfold IsWs
  exact List.forall_mem_append

theorem tail_no_space (m : Bytes) (st : NumSt) (h : numTail st m) : 32 ∉ m := by
  induction m generalizing st with
  | nil => simp
  | cons c m ih =>
    rw [numTail] at h
    cases hn : numNext st c with
    | none => rw [hn] at h; exact h.elim
    | some st' =>
      rw [hn] at h
      intro hm
      rcases List.mem_cons.mp hm with rfl | hm
      · have : numNext st 32 = none := by cases st <;> rfl
        rw [this] at hn
        cases hn
      · exact ih st' h hm

theorem last_byte {d : Nat} {b : Bytes} {v : JVal} (h : IsValue d b v) : b.getLast? ≠ some 32 := by
  cases h with
  | null => decide
  | true => decide
  | false => decide
  | num hn =>
    obtain ⟨c, m, rfl, h⟩ := (isNumber_iff _).mp hn
    intro hl
    have hm := List.mem_of_getLast? hl
    rcases List.mem_cons.mp hm with rfl | hm
    · rcases h with ⟨h, _⟩ | ⟨h, _⟩ | ⟨_, h, _⟩
      · exact absurd h (by decide)
      · exact absurd h (by decide)
      · exact absurd h (by unfold IsDigit; decide)
    · rcases h with ⟨_, h⟩ | ⟨_, h⟩ | ⟨_, _, h⟩ <;> exact tail_no_space m _ h hm
  | str _ => rw [List.getLast?_concat]; decide
  | arr0 _ => rw [List.getLast?_concat]; decide
  | arr _ => rw [List.getLast?_concat]; decide
  | obj0 _ => rw [List.getLast?_concat]; decide
  | obj _ => rw [List.getLast?_concat]; decide

/-- The decoder accepts exactly the documents of the grammar, with these values. -/
theorem parse_iff (data : Bytes) (v : JVal) : parse data = some v ↔ IsDocument data v := by
  unfold parse
  constructor
  · intro h
    have hm : (run ⟨[], .value⟩ (data ++ [32])).mode = .done v := by
      split at h
      · rename_i v' hv
        obtain rfl := Option.some.inj h
        exact hv
      · cases h
    obtain ⟨w, b, rest, v', he, hw, hb, hne, hr⟩ := (sound _).1 _ [] _ (Nat.le_refl _) ⟨v, hm⟩ rfl
    rw [← hr] at hm
    obtain ⟨hrest, rfl⟩ := run_done hm
    rcases List.eq_nil_or_concat rest with rfl | ⟨r', x, rfl⟩
    · exfalso
      rw [List.append_nil] at he
      -- the value would end in a space
      obtain ⟨b', rfl⟩ : ∃ b', b = b' ++ [32] := by
        rcases List.eq_nil_or_concat b with rfl | ⟨b', y, rfl⟩
        · exact absurd rfl hne
        · rw [List.concat_eq_append, ← List.append_assoc] at he
          have := List.append_inj_right' he rfl
          exact ⟨b', by rw [List.concat_eq_append, ← this]⟩
      exact last_byte hb List.getLast?_concat
    · rw [List.concat_eq_append, ← List.append_assoc] at he
      have h1 := List.append_inj_left' he rfl
      rw [List.concat_eq_append] at hrest
      exact ⟨w, b, r', h1, hw, hb, (isWs_append.mp hrest).1⟩
  · rintro ⟨w1, b, w2, rfl, hw1, hb, hw2⟩
    obtain ⟨x, r, hx, hT⟩ := head_term hw2 (c := 32) (.inl (by decide))
    have ih := completeV hb [] x (by simp) hT
    have : run ⟨[], .value⟩ (w1 ++ b ++ w2 ++ [32]) = ⟨[], .done v⟩ := by
      rw [show w1 ++ b ++ w2 ++ [32] = w1 ++ (b ++ (w2 ++ [32])) by simp, run_ws (value_ws _) hw1, hx,
        show b ++ x :: r = (b ++ [x]) ++ r by simp, run_append, ih, ← run_cons, ← hx]
      show run ⟨[], .done v⟩ (w2 ++ [32]) = _
      rw [run_ws (done_ws _ _) hw2]
      rfl
    rw [run] at this
    rw [this]

theorem parseFirst_sound {data : Bytes} {s : Scan} {v : JVal} (h : parseFirst s data = some v) :
    (∃ a rest, data = a ++ rest ∧ (run s a).mode = .done v) ∨ (run s (data ++ [32])).mode = .done v := by
  induction data generalizing s with
  | nil =>
    rw [parseFirst] at h
    split at h
    · rename_i v' hv
      obtain rfl := Option.some.inj h
      exact .inr hv
    · cases h
  | cons c data ih =>
    rw [parseFirst] at h
    split at h
    · rename_i v' hv
      obtain rfl := Option.some.inj h
      exact .inl ⟨[c], data, rfl, hv⟩
    · rcases ih h with ⟨a, rest, rfl, h'⟩ | h'
      · exact .inl ⟨c :: a, rest, rfl, h'⟩
      · exact .inr h'

/-- What the stream decoder finds is at the beginning of the stream. -/
theorem parseFirst_begins {data : Bytes} {v : JVal} (h : parseFirst ⟨[], .value⟩ data = some v) :
    ∃ w b rest, data = w ++ b ++ rest ∧ IsWs w ∧ IsValue 10000 b v := by
  have key : ∀ a : Bytes, (run ⟨[], .value⟩ a).mode = .done v → ∃ w b r, a = w ++ b ++ r ∧ IsWs w ∧
      IsValue 10000 b v ∧ IsWs r := by
    intro a ha
    obtain ⟨w, b, rest, v', he, hw, hb, hne, hr⟩ := (sound _).1 a [] _ (Nat.le_refl _) ⟨_, ha⟩ rfl
    rw [← hr] at ha
    obtain ⟨hrest, rfl⟩ := run_done ha
    exact ⟨w, b, rest, he, hw, hb, hrest⟩
  rcases parseFirst_sound h with ⟨a, rest, rfl, ha⟩ | ha
  · obtain ⟨w, b, r, rfl, hw, hb, _⟩ := key a ha
    exact ⟨w, b, r ++ rest, by simp, hw, hb⟩
  · have : parse data = some v := by
      unfold parse
      rw [run] at ha
      rw [ha]
    obtain ⟨w, b, r, rfl, hw, hb, _⟩ := (parse_iff _ _).mp this
    exact ⟨w, b, r, rfl, hw, hb⟩

/-- The stream decoder finds an object exactly if the stream begins with it. -/
theorem parseFirst_iff (data : Bytes) (ms : List (GoString × JVal)) :
    parseFirst ⟨[], .value⟩ data = some (.obj ms) ↔ BeginsWithObject data ms := by
  constructor
  · exact parseFirst_begins
  · rintro ⟨w, b, rest, rfl, hw, hb⟩
    have hrun : run ⟨[], .value⟩ (w ++ b) = ⟨[], .done (.obj ms)⟩ := by
      rw [run_ws (value_ws _) hw]
      cases hb with
      | @obj0 d w' hw' =>
        have h0 : step ⟨[], .value⟩ 123 = ⟨[.obj [] []], .keyOrEnd⟩ := by
          show push [] (.obj [] []) .keyOrEnd = _
          exact push_ok (by simp)
        rw [List.append_assoc, List.singleton_append, run_cons, h0, run_ws (keyOrEnd_ws _) hw']
        rfl
      | @obj d b' _ he =>
        have h0 : step ⟨[], .value⟩ 123 = ⟨[.obj [] []], .keyOrEnd⟩ := by
          show push [] (.obj [] []) .keyOrEnd = _
          exact push_ok (by simp)
        rw [List.append_assoc, List.singleton_append, run_cons, h0, keyOrEnd_members he,
          completeM he [] [] [] (by simp)]
        rfl
    exact parseFirst_of_foldl (w ++ b) rest ⟨[], .value⟩ (.obj ms) (fun _ h => by cases h)
      (by rw [show (w ++ b).foldl step ⟨[], .value⟩ = run ⟨[], .value⟩ (w ++ b) from rfl, hrun])

end Migp.Json
