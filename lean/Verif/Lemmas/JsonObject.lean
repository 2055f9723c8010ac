import Verif.Lemmas.Json
/-!
# Parsing encoded objects
-/
namespace Migp.Json

/-- As the value of a member, followed by a comma or a closing brace, `b` is read as `v`. -/
def Reads (b : Bytes) (v : JVal) : Prop := ∀ (k : GoString) (ms : List (GoString × JVal))
  (st : List Frame) (c : UInt8), c = 44 ∨ c = 125 →
  (b ++ [c]).foldl step ⟨.obj k ms :: st, .value⟩ = afterValue (.obj k ((k, v) :: ms) :: st) c

theorem step_str_end (stack : List Frame) (raw : Bytes) :
    step ⟨stack, .str false raw 0⟩ 34 = endValue stack (.str (unquote raw.reverse)) := rfl

/-- A quoted text that stays inside a string. -/
theorem Reads.string {b : Bytes} (h : Stays b) : Reads ([34] ++ b ++ [34]) (.str (unquote b)) := by
  intro k ms st c hc
  rw [List.foldl_append, List.foldl_append, List.foldl_append]
  have h0 : ([34] : Bytes).foldl step ⟨.obj k ms :: st, .value⟩ =
      ⟨.obj k ms :: st, .str false [] 0⟩ := rfl
  rw [h0, h, List.append_nil]
  simp only [List.foldl]
  rw [step_str_end, List.reverse_reverse]
  rfl

theorem Reads.quote (s : GoString) : Reads (quote s) (.str (toValidUTF8 s)) := by
  have := Reads.string (Stays.flatMap (fun r hr => stays_quoteRune ((runes_spec s).2 r hr)))
  rwa [unquote_quote] at this

theorem Reads.bytes (b : Bytes) : Reads (encBytes b) (.str (b64Encode b)) := by
  have hc := b64Encode_chars b
  have := Reads.string (Stays.plains (b := b64Encode b) (fun c h => by have := hc c h; omega))
  rwa [unquote_plains (fun c h => by have := hc c h; omega)] at this

theorem isDigit_iff {c : UInt8} : isDigit c = true ↔ 48 ≤ c.toNat ∧ c.toNat ≤ 57 := by
  unfold isDigit; simp

theorem isSpace_false {c : UInt8} (h : 33 ≤ c.toNat) : isSpace c = false := by
  unfold isSpace
  simp; omega

theorem foldl_digits (stack : List Frame) (ds raw : Bytes) (h : ∀ c ∈ ds, isDigit c = true) :
    ds.foldl step ⟨stack, .num raw .int⟩ = ⟨stack, .num (ds.reverse ++ raw) .int⟩ := by
  induction ds generalizing raw with
  | nil => rfl
  | cons d ds ih =>
    have hd := h d List.mem_cons_self
    rw [List.foldl_cons]
    have : step ⟨stack, .num raw .int⟩ d = ⟨stack, .num (d :: raw) .int⟩ := by
      simp only [step, inNumber]
      rw [if_pos hd]
    rw [this, ih _ (fun c hc => h c (List.mem_cons_of_mem _ hc))]
    simp

theorem step_num_end {k : GoString} {ms : List (GoString × JVal)} {st : List Frame} {raw : Bytes}
    {n : NumSt} (hn : n = .zero ∨ n = .int) {c : UInt8} (hc : c = 44 ∨ c = 125) :
    step ⟨.obj k ms :: st, .num raw n⟩ c =
      afterValue (.obj k ((k, .num raw.reverse) :: ms) :: st) c := by
  rcases hn with rfl | rfl <;> rcases hc with rfl | rfl <;> rfl

/-- Digits as written by the encoder, after an optional sign. -/
theorem foldl_natDec (stack : List Frame) (n : Nat) (s : Scan) (raw : Bytes)
    (h0 : step s 48 = ⟨stack, .num (48 :: raw) .zero⟩)
    (hd : ∀ c, isDigit c = true → c.toNat ≠ 48 → step s c = ⟨stack, .num (c :: raw) .int⟩) :
    ∃ m, (m = NumSt.zero ∨ m = NumSt.int) ∧
      (natDec n).foldl step s = ⟨stack, .num ((natDec n).reverse ++ raw) m⟩ := by
  obtain ⟨h1, -, h3⟩ := natDec_spec n
  rcases h3 with h | ⟨d, ds, h, h48⟩
  · rw [h]; exact ⟨.zero, .inl rfl, by simpa using h0⟩
  · rw [h] at h1 ⊢
    refine ⟨.int, .inr rfl, ?_⟩
    rw [List.foldl_cons, hd d (h1 d List.mem_cons_self) h48,
      foldl_digits _ _ _ (fun c hc => h1 c (List.mem_cons_of_mem _ hc))]
    simp

theorem step_value_digit (stack : List Frame) {c : UInt8} (h : isDigit c = true) (h0 : c.toNat ≠ 48) :
    step ⟨stack, .value⟩ c = ⟨stack, .num [c] .int⟩ := by
  have := isDigit_iff.mp h
  simp only [step, beginValue]
  rw [isSpace_false (by omega)]
  simp only [Bool.false_eq_true, if_false]
  rw [if_neg (by omega), if_neg (by omega), if_neg (by omega), if_neg (by omega), if_neg h0, if_pos h]

theorem Reads.nat (n : Nat) : Reads (natDec n) (.num (natDec n)) := by
  intro k ms st c hc
  obtain ⟨m, hm, h⟩ := foldl_natDec (.obj k ms :: st) n ⟨.obj k ms :: st, .value⟩ [] rfl
    (fun c h h0 => step_value_digit _ h h0)
  rw [List.foldl_append, h]
  simp only [List.foldl]
  rw [step_num_end hm hc, List.append_nil, List.reverse_reverse]

theorem Reads.int (n : Int) : Reads (intDec n) (.num (intDec n)) := by
  unfold intDec
  split
  · intro k ms st c hc
    rw [List.cons_append, List.foldl_cons]
    have h0 : step ⟨.obj k ms :: st, .value⟩ 45 = ⟨.obj k ms :: st, .num [45] .neg⟩ := rfl
    obtain ⟨m, hm, h⟩ := foldl_natDec (.obj k ms :: st) n.natAbs ⟨.obj k ms :: st, .num [45] .neg⟩ [45] rfl
      (fun c h h0 => by
        simp only [step, inNumber]
        rw [if_neg h0, if_pos h])
    rw [h0, List.foldl_append, h]
    simp only [List.foldl]
    rw [step_num_end hm hc, List.reverse_append, List.reverse_reverse]
    rfl
  · exact Reads.nat _

theorem Reads.true : Reads (ascii "true") (.bool true) := by
  intro k ms st c hc
  rfl

/-- A name as it stands in a struct tag: printable ASCII without quotes and backslashes. -/
def PlainName (k : GoString) : Prop := ∀ c ∈ k, 32 ≤ c.toNat ∧ c.toNat < 128 ∧ c.toNat ≠ 34 ∧ c.toNat ≠ 92

instance (k : GoString) : Decidable (PlainName k) := by unfold PlainName; infer_instance

theorem foldl_key {k k0 : GoString} (h : PlainName k) (ms : List (GoString × JVal)) (st : List Frame)
    {m : Mode} (hm : m = .keyOrEnd ∨ m = .key) :
    ([34] ++ k ++ [34, 58]).foldl step ⟨.obj k0 ms :: st, m⟩ = ⟨.obj k ms :: st, .value⟩ := by
  rw [List.foldl_append, List.foldl_append]
  have h0 : ([34] : Bytes).foldl step ⟨.obj k0 ms :: st, m⟩ = ⟨.obj k0 ms :: st, .str true [] 0⟩ := by
    rcases hm with rfl | rfl <;> rfl
  have hs : Stays k := Stays.plains (fun c hc => by have := h c hc; omega)
  have hu : unquote k = k := unquote_plains (fun c hc => by have := h c hc; omega)
  rw [h0, hs, List.append_nil]
  have h1 : step ⟨.obj k0 ms :: st, .str true k.reverse 0⟩ 34 =
      ⟨.obj (unquote k.reverse.reverse) ms :: st, .colon⟩ := rfl
  rw [List.reverse_reverse, hu] at h1
  simp only [List.foldl]
  rw [h1]
  rfl

/-- A member of an encoded object: name, text, value. -/
structure Member where
  name : GoString
  text : Bytes
  val : JVal

theorem foldl_members (ms : List Member) (hne : ms ≠ [])
    (h : ∀ m ∈ ms, PlainName m.name ∧ Reads m.text m.val) (k0 : GoString)
    (acc : List (GoString × JVal)) (st : List Frame) {m : Mode} (hm : m = .keyOrEnd ∨ m = .key) :
    (encMembers (ms.map (fun m : Member => (m.name, m.text))) ++ [125]).foldl step ⟨.obj k0 acc :: st, m⟩ =
      endValue st (.obj (acc.reverse ++ ms.map (fun m : Member => (m.name, m.val)))) := by
  induction ms generalizing k0 acc m with
  | nil => exact absurd rfl hne
  | cons x xs ih =>
    obtain ⟨h1, h2⟩ := h x List.mem_cons_self
    cases xs with
    | nil =>
      simp only [List.map_cons, List.map_nil, encMembers]
      rw [List.append_assoc, List.foldl_append, foldl_key h1 acc st hm, h2 _ _ _ _ (.inr rfl)]
      simp only [afterValue]
      rw [isSpace_false (by decide)]
      simp
    | cons y ys =>
      have ih' := ih (by simp) (fun m hm => h m (List.mem_cons_of_mem _ hm)) x.name
        ((x.name, x.val) :: acc) (m := .key) (.inr rfl)
      rw [List.map_cons, List.map_cons, encMembers, ← List.map_cons (f := fun m : Member => (m.name, m.text))]
      · rw [List.append_assoc, List.append_assoc ([34] ++ x.name ++ [34, 58]),
          List.append_assoc ([34] ++ x.name ++ [34, 58]), List.foldl_append,
          foldl_key h1 acc st hm, ← List.append_assoc, List.append_assoc (x.text ++ [44]),
          List.foldl_append, h2 _ _ _ _ (.inl rfl)]
        have h0 : afterValue (.obj x.name ((x.name, x.val) :: acc) :: st) 44 =
            ⟨.obj x.name ((x.name, x.val) :: acc) :: st, .key⟩ := rfl
        rw [h0, ih']
        simp
      · simp

/-- Running the scanner over an encoded object. -/
theorem foldl_object (ms : List Member) (hne : ms ≠ [])
    (h : ∀ m ∈ ms, PlainName m.name ∧ Reads m.text m.val) :
    (encObject (ms.map (fun m : Member => (m.name, m.text)))).foldl step ⟨[], .value⟩ =
      ⟨[], .done (.obj (ms.map (fun m : Member => (m.name, m.val))))⟩ := by
  unfold encObject
  rw [List.append_assoc, List.foldl_append]
  have h0 : ([123] : Bytes).foldl step ⟨[], .value⟩ = ⟨[.obj [] []], .keyOrEnd⟩ := rfl
  rw [h0, foldl_members ms hne h _ _ _ (.inl rfl)]
  rfl

theorem parse_object (ms : List Member) (hne : ms ≠ [])
    (h : ∀ m ∈ ms, PlainName m.name ∧ Reads m.text m.val) :
    parse (encObject (ms.map (fun m : Member => (m.name, m.text)))) =
      some (.obj (ms.map (fun m : Member => (m.name, m.val)))) := by
  unfold parse
  rw [List.foldl_append, foldl_object ms hne h]
  rfl

theorem foldl_bad (data : Bytes) (st : List Frame) : data.foldl step ⟨st, .bad⟩ = ⟨st, .bad⟩ := by
  induction data with
  | nil => rfl
  | cons c cs ih => exact ih

theorem foldl_done (data : Bytes) (st : List Frame) (v v' : JVal)
    (h : (data.foldl step ⟨st, .done v⟩).mode = .done v') : v' = v := by
  induction data with
  | nil => simp only [List.foldl, Mode.done.injEq] at h; exact h.symm
  | cons c cs ih =>
    rw [List.foldl_cons] at h
    have : step ⟨st, .done v⟩ c = if isSpace c then ⟨st, .done v⟩ else ⟨st, .bad⟩ := rfl
    rw [this] at h
    split at h
    · exact ih h
    · rw [foldl_bad] at h; cases h

/-- What `json.Unmarshal` accepts, a `json.Decoder` reads in the same way, whatever follows if it ends in
a bracket or with white space. -/
theorem parseFirst_of_foldl (data extra : Bytes) (s : Scan) (v : JVal) (hs : ∀ w, s.mode ≠ .done w)
    (h : (data.foldl step s).mode = .done v) : parseFirst s (data ++ extra) = some v := by
  induction data generalizing s with
  | nil => exact absurd h (hs v)
  | cons c cs ih =>
    rw [List.cons_append, parseFirst]
    rw [List.foldl_cons] at h
    split
    · rename_i w hw
      have : step s c = ⟨(step s c).stack, .done w⟩ := by rw [← hw]
      rw [this] at h
      rw [foldl_done _ _ _ _ h]
    · rename_i hw
      exact ih _ (fun w e => hw w e) h

/-- The first value of an encoded object followed by anything. -/
theorem parseFirst_object (ms : List Member) (hne : ms ≠ [])
    (h : ∀ m ∈ ms, PlainName m.name ∧ Reads m.text m.val) (extra : Bytes) :
    parseFirst ⟨[], .value⟩ (encObject (ms.map (fun m : Member => (m.name, m.text))) ++ extra) =
      some (.obj (ms.map (fun m : Member => (m.name, m.val)))) :=
  parseFirst_of_foldl _ _ _ _ (fun w e => by cases e) (by rw [foldl_object ms hne h])

end Migp.Json
