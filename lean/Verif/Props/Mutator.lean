import Verif.Lemmas.Mutator
import Mathlib.Data.List.Perm.Subperm
import Mathlib.Data.List.Nodup
/-!
# C33–C41: the password mutator
-/
namespace Migp.Props
open Migp.Mutator Migp.Spec

/-! ## Single rules -/

/-- Rules whose result is specified: one of the four types, with something to search for. -/
def RuleWF (r : RDasRule) : Prop :=
  r.ruleType = ascii "c" ∨ r.ruleType = ascii "d" ∨ r.ruleType = ascii "i" ∨
    (r.ruleType = ascii "s" ∧ r.string1 ≠ [])

instance (r : RDasRule) : Decidable (RuleWF r) := by unfold RuleWF; infer_instance

/-- C40: the substitute rule cuts the password at the leftmost non-overlapping occurrences of
`String1` (there is exactly one way to do so), and joins the pieces with `String2`. -/
theorem C40_substitute (k : Int) (s1 s2 pw : Bytes) (h : s1 ≠ []) :
    ∃ ps, Pieces s1 pw ps ∧ (∀ qs, Pieces s1 pw qs → qs = ps) ∧ s1.intercalate ps = pw ∧
      applyRule ⟨ascii "s", k, s1, s2⟩ pw = .ok (s2.intercalate ps) := by
  obtain ⟨ps, hps⟩ := exists_pieces s1 h pw
  refine ⟨ps, hps, fun qs hq => (hq.unique hps), hps.join, ?_⟩
  have : applyRule ⟨ascii "s", k, s1, s2⟩ pw = .ok (replaceAll pw s1 s2) := rfl
  rw [this, replaceAll, if_neg h, replaceNonempty_pieces h hps]

/-- C40: a password without `String1` is unchanged. -/
theorem C40_absent (k : Int) (s1 s2 pw : Bytes) (h : s1 ≠ []) (ha : ¬ s1 <:+: pw) :
    applyRule ⟨ascii "s", k, s1, s2⟩ pw = .ok pw := by
  obtain ⟨ps, -, hu, -, hr⟩ := C40_substitute k s1 s2 pw h
  rw [hr, ← hu _ (.last pw ha)]
  simp [List.intercalate]

/-- C40, concrete case: overlapping occurrences are taken from the left. -/
theorem C40_example : Pieces (ascii "aa") (ascii "xaaay") [ascii "x", ascii "ay"] ∧
    applyRule ⟨ascii "s", 0, ascii "aa", ascii "b"⟩ (ascii "xaaay") = .ok (ascii "xbay") := by
  refine ⟨?_, by decide +kernel⟩
  have := Pieces.cut (old := ascii "aa") (ascii "x") (ascii "ay") [ascii "ay"] (by decide +kernel)
    (.last _ (by decide +kernel))
  exact this

/-- Every well-formed rule succeeds, and returns the specified result, which is unique. -/
theorem applyRule_result (r : RDasRule) (hr : RuleWF r) (pw : Bytes) :
    ∃ out, applyRule r pw = .ok out ∧ RuleResult r pw out ∧ ∀ o, RuleResult r pw o → o = out := by
  obtain ⟨ty, k, s1, s2⟩ := r
  simp only [RuleWF] at hr
  rcases hr with rfl | rfl | rfl | ⟨rfl, hs⟩
  · refine ⟨capitalise k pw, changeCap_eq pw k, .c k s1 s2 pw, ?_⟩
    intro o ho; cases ho; rfl
  · refine ⟨delete k pw, deletePortion_eq pw k, .d k s1 s2 pw, ?_⟩
    intro o ho; cases ho; rfl
  · refine ⟨insertAt k s1 pw, insert_eq pw k s1, .i k s1 s2 pw, ?_⟩
    intro o ho; cases ho; rfl
  · obtain ⟨ps, h1, h2, -, h3⟩ := C40_substitute k s1 s2 pw hs
    refine ⟨s2.intercalate ps, h3, .s k s1 s2 pw ps hs h1, ?_⟩
    intro o ho
    cases ho with
    | s _ _ _ _ qs _ hq => rw [h2 qs hq]

/-- C38: the capitalisation rule at position `k` never fails and rewrites the byte at that position
(counted from the end when negative) and nothing else. -/
theorem C38_capitalise (k : Int) (s1 s2 pw : Bytes) :
    applyRule ⟨ascii "c", k, s1, s2⟩ pw = .ok (capitalise k pw) := changeCap_eq pw k

/-- C38: the length is kept, and every other byte. -/
theorem C38_only_one_byte (k : Int) (s1 s2 pw out : Bytes)
    (h : applyRule ⟨ascii "c", k, s1, s2⟩ pw = .ok out) :
    out.length = pw.length ∧
      ∀ j : Nat, (j : Int) ≠ k → (j : Int) ≠ pw.length + k → out[j]? = pw[j]? := by
  rw [C38_capitalise] at h
  injection h with h
  subst h
  refine ⟨by simp [capitalise], fun j h1 h2 => ?_⟩
  unfold capitalise
  have hne : ¬ ((j : Int) = fromEnd k pw.length) := by unfold fromEnd; split <;> omega
  rw [List.getElem?_mapIdx]
  simp only [hne, if_false]
  simp

/-- C38: on ASCII passwords, applying the rule twice restores the password. -/
theorem C38_ascii_involution (k : Int) (s1 s2 pw out : Bytes) (ha : ∀ b ∈ pw, b < 128)
    (h : applyRule ⟨ascii "c", k, s1, s2⟩ pw = .ok out) :
    applyRule ⟨ascii "c", k, s1, s2⟩ out = .ok pw := by
  have hl := (C38_only_one_byte k s1 s2 pw out h).1
  rw [C38_capitalise] at h ⊢
  injection h with h
  subst h
  refine congrArg Res.ok ?_
  have htt : ∀ n : Fin 128, toggle (toggle (UInt8.ofNat n)) = UInt8.ofNat n := by decide +kernel
  apply List.ext_getElem (by simp [capitalise])
  intro j h1 h2
  unfold capitalise
  simp only [List.getElem_mapIdx, List.length_mapIdx]
  split
  · have hb : pw[j] < 128 := ha _ (List.getElem_mem h2)
    have := htt ⟨pw[j].toNat, hb⟩
    simpa using this
  · rfl

/-- C38: the first byte `a`–`z` becomes `A`–`Z` and back; ASCII non-letters stay. -/
theorem C38_ascii_table (s1 s2 rest : Bytes) (b : UInt8) (hb : b < 128) :
    applyRule ⟨ascii "c", 0, s1, s2⟩ (b :: rest) =
      .ok ((if 97 ≤ b ∧ b ≤ 122 then b - 32 else if 65 ≤ b ∧ b ≤ 90 then b + 32 else b) :: rest) := by
  rw [C38_capitalise, capitalise_in 0 (b :: rest) 0 (by simp) (by simp [fromEnd])]
  have ht : ∀ n : Fin 128, toggle (UInt8.ofNat n) =
      if 97 ≤ UInt8.ofNat n ∧ UInt8.ofNat n ≤ 122 then UInt8.ofNat n - 32
      else if 65 ≤ UInt8.ofNat n ∧ UInt8.ofNat n ≤ 90 then UInt8.ofNat n + 32 else UInt8.ofNat n := by
    decide +kernel
  have := ht ⟨b.toNat, hb⟩
  simp only [UInt8.ofNat_toNat] at this
  rw [List.getElem_cons_zero, List.set_cons_zero, this]

/-- C38: outside ASCII the rule is not an involution: `ÿ` (0xFF) becomes the letter `x`, and then
`X`. -/
theorem C38_latin1_not_involution (s1 s2 rest : Bytes) :
    applyRule ⟨ascii "c", 0, s1, s2⟩ (0xFF :: rest) = .ok (0x78 :: rest) ∧
    applyRule ⟨ascii "c", 0, s1, s2⟩ (0x78 :: rest) = .ok (0x58 :: rest) := by
  constructor <;>
  · rw [C38_capitalise, capitalise_in 0 _ 0 (by simp) (by simp [fromEnd])]
    refine congrArg Res.ok ?_
    simp only [List.getElem_cons_zero, List.set_cons_zero, List.cons.injEq, and_true]
    decide

/-- C39: deleting with position `k` never fails and removes exactly the first `k`, or last `-k`,
bytes when there are that many, and otherwise nothing. -/
theorem C39_delete (k : Nat) (s1 s2 pw : Bytes) :
    applyRule ⟨ascii "d", k, s1, s2⟩ pw = .ok (if k ≤ pw.length then pw.drop k else pw) ∧
    (0 < k → applyRule ⟨ascii "d", -k, s1, s2⟩ pw
      = .ok (if k ≤ pw.length then pw.take (pw.length - k) else pw)) := by
  constructor
  · refine (deletePortion_eq pw k).trans (congrArg Res.ok ?_)
    simp [delete]
  · intro hk
    refine (deletePortion_eq pw _).trans (congrArg Res.ok ?_)
    unfold delete
    simp only [Int.natAbs_neg, Int.natAbs_natCast]
    split
    · rw [if_neg (by omega)]
    · rfl

/-- C39: inserting at position `k ≥ 0` puts the string before index `k`, if the password is that
long. -/
theorem C39_insert_front (k : Nat) (s1 s2 a b : Bytes) :
    (k = a.length → applyRule ⟨ascii "i", k, s1, s2⟩ (a ++ b) = .ok (a ++ s1 ++ b)) ∧
    ((a ++ b).length < k → applyRule ⟨ascii "i", k, s1, s2⟩ (a ++ b) = .ok (a ++ b)) := by
  constructor
  · rintro rfl
    refine (insert_eq (a ++ b) _ s1).trans (congrArg Res.ok ?_)
    unfold insertAt fromEnd
    dsimp only
    rw [if_neg (by omega : ¬ ((a.length : Int) < 0)), List.length_append, if_pos (by omega),
      Int.toNat_natCast, List.take_left, List.drop_left]
  · intro h
    refine (insert_eq (a ++ b) _ s1).trans (congrArg Res.ok ?_)
    unfold insertAt fromEnd
    dsimp only
    rw [if_neg (by omega : ¬ ((k : Int) < 0)), if_neg (by omega)]

/-- C39: inserting at a negative position `-(m+1)` leaves exactly `m` bytes after the string, if the
password is that long. -/
theorem C39_insert_back (m : Nat) (s1 s2 a b : Bytes) :
    (m = b.length → applyRule ⟨ascii "i", -(m + 1), s1, s2⟩ (a ++ b) = .ok (a ++ s1 ++ b)) ∧
    ((a ++ b).length < m → applyRule ⟨ascii "i", -(m + 1), s1, s2⟩ (a ++ b) = .ok (a ++ b)) := by
  constructor
  · rintro rfl
    refine (insert_eq (a ++ b) _ s1).trans (congrArg Res.ok ?_)
    unfold insertAt fromEnd
    dsimp only
    rw [if_pos (by omega : -((b.length : Int) + 1) < 0), List.length_append, if_pos (by omega)]
    have : ((a.length + b.length + 1 : Nat) + (-((b.length : Int) + 1))).toNat = a.length := by omega
    rw [this, List.take_left, List.drop_left]
  · intro h
    refine (insert_eq (a ++ b) _ s1).trans (congrArg Res.ok ?_)
    unfold insertAt fromEnd
    dsimp only
    rw [if_pos (by omega : -((m : Int) + 1) < 0), if_neg (by omega)]

/-- C39: no rule of type `c`, `d` or `i` can fail, for any position and string. -/
theorem C39_total (ty : GoString) (h : ty = ascii "c" ∨ ty = ascii "d" ∨ ty = ascii "i") (k : Int)
    (s1 s2 pw : Bytes) : ∃ out, applyRule ⟨ty, k, s1, s2⟩ pw = .ok out := by
  obtain ⟨out, h, -⟩ := applyRule_result ⟨ty, k, s1, s2⟩ (by
    rcases h with h | h | h
    · exact .inl h
    · exact .inr (.inl h)
    · exact .inr (.inr (.inl h))) pw
  exact ⟨out, h⟩

/-! ## `Mutate` with the shipped rules -/

/-- All shipped rules are well formed. -/
theorem dasRules_wf : ∀ r ∈ dasRules, RuleWF r := by decide +kernel

theorem dasRules_length : dasRules.length = 323 := by decide +kernel

/-- The rule's result as a function. -/
def resultOf (pw : Bytes) (r : RDasRule) : Bytes :=
  match applyRule r pw with
  | .ok x => x
  | _ => []

theorem resultOf_spec (pw : Bytes) (r : RDasRule) (h : RuleWF r) :
    applyRule r pw = .ok (resultOf pw r) ∧ RuleResult r pw (resultOf pw r) ∧
      ∀ o, RuleResult r pw o → o = resultOf pw r := by
  obtain ⟨out, h1, h2⟩ := applyRule_result r h pw
  have : resultOf pw r = out := by unfold resultOf; rw [h1]
  rw [this]; exact ⟨h1, h2⟩

theorem mutate_keep (pw : Bytes) (num : Int) (h0 : 0 ≤ num) (h1 : num ≤ maxSliceCap) :
    mutate dasRules pw num
      = .ok ((keep [Murmur3.sum32 pw] (dasRules.map (resultOf pw))).take num.toNat) := by
  unfold mutate
  rw [if_neg (by rw [dasRules_length]; decide), if_neg (by rintro (h | h) <;> omega),
    mutateLoop_eq pw num (resultOf pw) dasRules
      (fun r hr => (resultOf_spec pw r (dasRules_wf r hr)).1) 0 h0]
  simp

/-- C37: with the shipped rules, `Mutate` panics exactly when the requested number is negative (or
beyond what can be allocated); it never returns an error. -/
theorem C37_panics_iff (pw : Bytes) (num : Int) :
    ((mutate dasRules pw num).IsPanic ↔ num < 0 ∨ maxSliceCap < num) ∧
    ((mutate dasRules pw num).IsOk ↔ 0 ≤ num ∧ num ≤ maxSliceCap) := by
  by_cases h : num < 0 ∨ maxSliceCap < num
  · have : mutate dasRules pw num = .panic .makeslice := by
      unfold mutate
      rw [if_neg (by rw [dasRules_length]; decide), if_pos h]
    rw [this]
    refine ⟨⟨fun _ => h, fun _ => ⟨_, rfl⟩⟩, ?_⟩
    simp only [Res.isOk_panic, false_iff]
    omega
  · rw [mutate_keep pw num (by omega) (by omega)]
    simp only [Res.isPanic_ok, false_iff, Res.isOk_ok, true_iff]
    omega

/-- C37: the limit is that 24 bytes for each of the variants are at most 2^48 bytes, far above any practical count. -/
theorem C37_limit (n : Int) : n ≤ maxSliceCap ↔ 24 * n ≤ 2 ^ 48 := by
  unfold maxSliceCap
  omega

theorem mutate_ok_range {pw : Bytes} {num : Int} {vs : List Bytes}
    (h : mutate dasRules pw num = .ok vs) : 0 ≤ num ∧ num ≤ maxSliceCap :=
  (C37_panics_iff pw num).2.mp ⟨vs, h⟩

theorem results_unique (pw : Bytes) (rules : List RDasRule) (rs : List Bytes)
    (hwf : ∀ r ∈ rules, RuleWF r)
    (hrs : List.Forall₂ (fun r out => RuleResult r pw out) rules rs) :
    rs = rules.map (resultOf pw) := by
  induction hrs with
  | nil => rfl
  | cons ha _ ih =>
    rw [List.map_cons, ← ih (fun r hr => hwf r (by simp [hr]))]
    rw [(resultOf_spec pw _ (hwf _ (by simp))).2.2 _ ha]

theorem results_mem (pw : Bytes) (rules : List RDasRule) (rs : List Bytes)
    (hrs : List.Forall₂ (fun r out => RuleResult r pw out) rules rs) (v : Bytes) (hv : v ∈ rs) :
    ∃ r ∈ rules, RuleResult r pw v := by
  induction hrs with
  | nil => cases hv
  | cons ha _ ih =>
    rcases List.mem_cons.mp hv with rfl | h
    · exact ⟨_, by simp, ha⟩
    · obtain ⟨r, h1, h2⟩ := ih h
      exact ⟨r, by simp [h1], h2⟩

/-- C34/C35, exact result: `Mutate` returns the first `num` of those rule results, in rule order,
whose murmur3 hash differs from those of the password and of all earlier rule results. -/
theorem C35_exact (pw : Bytes) (num : Int) (vs : List Bytes)
    (h : mutate dasRules pw num = .ok vs) (rs : List Bytes)
    (hrs : List.Forall₂ (fun r out => RuleResult r pw out) dasRules rs) :
    vs = (freshResults pw rs).take num.toNat := by
  have hr := mutate_ok_range h
  rw [mutate_keep pw num hr.1 hr.2] at h
  injection h with h
  have : rs = dasRules.map (resultOf pw) := results_unique pw dasRules rs dasRules_wf hrs
  rw [← h, this, keep_eq_freshResults]

/-- The list of results required by `C35_exact` exists for every password. -/
theorem ruleResults_exist (pw : Bytes) :
    ∃ rs, List.Forall₂ (fun r out => RuleResult r pw out) dasRules rs := by
  refine ⟨dasRules.map (resultOf pw), ?_⟩
  have hwf := dasRules_wf
  revert hwf
  induction dasRules with
  | nil => intro _; exact .nil
  | cons r l ih =>
    intro hwf
    exact .cons (resultOf_spec pw r (hwf r (by simp))).2.1 (ih (fun r hr => hwf r (by simp [hr])))

/-- C33: at most `num` and at most 323 variants, pairwise distinct, none equal to the password. -/
theorem C33_distinct (pw : Bytes) (num : Int) (vs : List Bytes)
    (h : mutate dasRules pw num = .ok vs) :
    (vs.length : Int) ≤ num ∧ vs.length ≤ 323 ∧ vs.Nodup ∧ pw ∉ vs := by
  have hr := mutate_ok_range h
  rw [mutate_keep pw num hr.1 hr.2] at h
  injection h with h
  have hsub := (List.take_sublist num.toNat (keep [Murmur3.sum32 pw] (dasRules.map (resultOf pw))))
  have hnd := keep_nodup [Murmur3.sum32 pw] (dasRules.map (resultOf pw))
  subst h
  refine ⟨?_, ?_, ?_, ?_⟩
  · rw [List.length_take]; omega
  · have h1 := hsub.length_le
    have h2 := (keep_sublist [Murmur3.sum32 pw] (dasRules.map (resultOf pw))).length_le
    rw [List.length_map, dasRules_length] at h2
    omega
  · exact hsub.nodup (List.Nodup.of_map _ hnd.1)
  · intro hm
    exact hnd.2 _ (List.mem_singleton.mpr rfl) (List.mem_map_of_mem (hsub.subset hm))

/-- C34: the variants appear in rule order: they are a subsequence of the list of the 323 rule
results. In particular each comes from a rule. -/
theorem C34_from_rules (pw : Bytes) (num : Int) (vs : List Bytes)
    (h : mutate dasRules pw num = .ok vs) :
    (∃ rs, List.Forall₂ (fun r out => RuleResult r pw out) dasRules rs ∧ vs.Sublist rs) ∧
    ∀ v ∈ vs, ∃ r ∈ dasRules, RuleResult r pw v := by
  have hr := mutate_ok_range h
  obtain ⟨rs, hrs⟩ := ruleResults_exist pw
  have hv := C35_exact pw num vs h rs hrs
  rw [← keep_eq_freshResults] at hv
  have hs : vs.Sublist rs := hv ▸ (List.take_sublist _ _).trans (keep_sublist _ _)
  refine ⟨⟨rs, hrs, hs⟩, fun v hv => ?_⟩
  exact results_mem pw dasRules rs hrs v (hs.subset hv)

/-- C34: asking for fewer variants gives a prefix, and with exactly the requested number whenever
the longer list has that many. -/
theorem C34_prefix (pw : Bytes) (n m : Int) (vs ws : List Bytes) (hnm : n ≤ m)
    (h1 : mutate dasRules pw n = .ok vs) (h2 : mutate dasRules pw m = .ok ws) :
    vs = ws.take n.toNat := by
  have r1 := mutate_ok_range h1
  have r2 := mutate_ok_range h2
  rw [mutate_keep pw _ r1.1 r1.2] at h1
  rw [mutate_keep pw _ r2.1 r2.2] at h2
  injection h1 with h1
  injection h2 with h2
  rw [← h1, ← h2, List.take_take, Nat.min_eq_left (by omega)]

/-- C35: with `num ≥ 323`, every rule's result is returned, or has the same murmur3 hash as the
password or as a returned variant. -/
theorem C35_complete_up_to_hash (pw : Bytes) (num : Int) (vs : List Bytes) (hn : 323 ≤ num)
    (h : mutate dasRules pw num = .ok vs) (r : RDasRule) (hr : r ∈ dasRules) (out : Bytes)
    (ho : RuleResult r pw out) :
    Murmur3.sum32 out = Murmur3.sum32 pw ∨ ∃ v ∈ vs, Murmur3.sum32 v = Murmur3.sum32 out := by
  have hrg := mutate_ok_range h
  rw [mutate_keep pw num hrg.1 hrg.2] at h
  injection h with h
  have hk := (keep_sublist [Murmur3.sum32 pw] (dasRules.map (resultOf pw))).length_le
  rw [List.length_map, dasRules_length] at hk
  rw [List.take_of_length_le (by omega)] at h
  have := (mem_keep_hash [Murmur3.sum32 pw] (dasRules.map (resultOf pw)) (Murmur3.sum32 out)).mpr
    (.inr (List.mem_map_of_mem (List.mem_map.mpr
      ⟨r, hr, ((resultOf_spec pw r (dasRules_wf r hr)).2.2 out ho).symm⟩)))
  rw [h] at this
  rcases this with h | h
  · exact .inl (List.mem_singleton.mp h)
  · obtain ⟨v, hv, e⟩ := List.mem_map.mp h
    exact .inr ⟨v, hv, e⟩

/-- C35: absent hash collisions among the password and its rule results, nothing is missing. -/
theorem C35_complete (pw : Bytes) (num : Int) (vs : List Bytes) (hn : 323 ≤ num)
    (h : mutate dasRules pw num = .ok vs)
    (hinj : ∀ r ∈ dasRules, ∀ r' ∈ dasRules, ∀ x y, (RuleResult r pw x ∨ x = pw) →
      RuleResult r' pw y → Murmur3.sum32 x = Murmur3.sum32 y → x = y)
    (out : Bytes) : out ∈ vs ↔ out ≠ pw ∧ ∃ r ∈ dasRules, RuleResult r pw out := by
  constructor
  · intro hv
    exact ⟨fun e => (C33_distinct pw num vs h).2.2.2 (e ▸ hv), (C34_from_rules pw num vs h).2 out hv⟩
  · rintro ⟨hne, r, hr, ho⟩
    rcases C35_complete_up_to_hash pw num vs hn h r hr out ho with e | ⟨v, hv, e⟩
    · exact absurd (hinj r hr r hr pw out (.inr rfl) ho e.symm).symm hne
    · obtain ⟨r', hr', hv'⟩ := (C34_from_rules pw num vs h).2 v hv
      exact hinj r' hr' r hr v out (.inl hv') ho e ▸ hv

/-- The password of the counterexample. -/
def collidingPassword : Bytes := ascii "lxqd"

/-- C35: completeness is false of the code. For the password `lxqd` the rule "append `D`" gives the
distinct string `lxqdD`, and no call to `Mutate`, for any count, returns it: its murmur3 hash equals
that of the earlier variant `66lxqd`. -/
theorem C35_collision :
    ∃ r ∈ dasRules, RuleResult r collidingPassword (ascii "lxqdD") ∧
      ascii "lxqdD" ≠ collidingPassword ∧
      Murmur3.sum32 (ascii "lxqdD") = Murmur3.sum32 (ascii "66lxqd") ∧
      ∀ num vs, mutate dasRules collidingPassword num = .ok vs → ascii "lxqdD" ∉ vs := by
  refine ⟨⟨ascii "i", -1, ascii "D", []⟩, by decide +kernel, ?_, by decide, by decide +kernel, ?_⟩
  · have := RuleResult.i (-1) (ascii "D") [] collidingPassword
    have e : insertAt (-1) (ascii "D") collidingPassword = ascii "lxqdD" := by decide +kernel
    rwa [e] at this
  · intro num vs h hm
    have hr := mutate_ok_range h
    rw [mutate_keep _ num hr.1 hr.2] at h
    injection h with h
    have h2 : ascii "lxqdD" ∈
        keep [Murmur3.sum32 collidingPassword] (dasRules.map (resultOf collidingPassword)) :=
      (List.take_sublist _ _).subset (h ▸ hm)
    -- the 243 rules before the one that appends `D`
    have hpre : ascii "66lxqd" ∈ (dasRules.take 243).map (resultOf collidingPassword) ∧
        ascii "lxqdD" ∉ (dasRules.take 243).map (resultOf collidingPassword) := by decide +kernel
    rw [← List.take_append_drop 243 dasRules, List.map_append] at h2
    obtain ⟨seen', hs, he⟩ := keep_append [Murmur3.sum32 collidingPassword]
      ((dasRules.take 243).map (resultOf collidingPassword))
      ((dasRules.drop 243).map (resultOf collidingPassword))
    rw [he] at h2
    rcases List.mem_append.mp h2 with h2 | h2
    · exact hpre.2 ((keep_sublist _ _).subset h2)
    · refine (keep_nodup seen' _).2 (Murmur3.sum32 (ascii "lxqdD")) ?_ (List.mem_map_of_mem h2)
      rw [hs]
      have hc : Murmur3.sum32 (ascii "lxqdD") = Murmur3.sum32 (ascii "66lxqd") := by decide +kernel
      rw [hc]
      exact .inr (List.mem_map_of_mem hpre.1)

/-! ## A lower bound for every password -/

/-- The shipped rules that put two characters in front. -/
def prepend2 : List RDasRule :=
  dasRules.filter (fun r => r.ruleType = ascii "i" ∧ r.position = 0 ∧ r.string1.length = 2)

theorem prepend2_strings : (prepend2.map (·.string1)).Nodup ∧ prepend2.length = 99 := by
  decide +kernel

theorem prepend2_result (pw : Bytes) (r : RDasRule) (hr : r ∈ prepend2) :
    resultOf pw r = r.string1 ++ pw := by
  have h := List.mem_filter.mp hr
  simp only [decide_eq_true_eq] at h
  obtain ⟨hm, ht, hp, hl⟩ := h
  obtain ⟨h1, -, -⟩ := resultOf_spec pw r (dasRules_wf r hm)
  obtain ⟨ty, k, s1, s2⟩ := r
  simp only at ht hp
  subst ht hp
  have h2 := (C39_insert_front 0 s1 s2 [] pw).1 rfl
  simp only [List.nil_append, Int.natCast_zero] at h2
  rw [h1] at h2
  injection h2

theorem prepend2_len (r : RDasRule) (hr : r ∈ prepend2) : r.string1.length = 2 := by
  have h := List.mem_filter.mp hr
  simp only [decide_eq_true_eq] at h
  exact h.2.2.2

/-- Counting: distinct 2-byte prefixes give distinct hashes, all of which are hashes of the password
or of a kept variant. -/
theorem keep_length_ge (pw : Bytes) (P : List RDasRule) (ys : List Bytes)
    (hn : (P.map (·.string1)).Nodup) (hlen : ∀ r ∈ P, r.string1.length = 2)
    (hys : ∀ r ∈ P, r.string1 ++ pw ∈ ys) :
    P.length ≤ (keep [Murmur3.sum32 pw] ys).length + 1 := by
  have hnd : (P.map (fun r => Murmur3.sum32 (r.string1 ++ pw))).Nodup := by
    refine List.Nodup.map_on ?_ (List.Nodup.of_map _ hn)
    intro x hx y hy e
    obtain ⟨a, b, hab⟩ := List.length_eq_two.mp (hlen x hx)
    obtain ⟨c, d, hcd⟩ := List.length_eq_two.mp (hlen y hy)
    rw [hab, hcd] at e
    obtain ⟨rfl, rfl⟩ := Murmur3.sum32_front2 pw e
    exact List.inj_on_of_nodup_map hn hx hy (by rw [hab, hcd])
  have hsub : P.map (fun r => Murmur3.sum32 (r.string1 ++ pw)) ⊆ Murmur3.sum32 pw ::
      (keep [Murmur3.sum32 pw] ys).map Murmur3.sum32 := by
    intro x hx
    obtain ⟨r, hr, rfl⟩ := List.mem_map.mp hx
    have := (mem_keep_hash [Murmur3.sum32 pw] ys
      (Murmur3.sum32 (r.string1 ++ pw))).mpr (.inr (List.mem_map_of_mem (hys r hr)))
    simpa using this
  have := (List.subperm_of_subset hnd hsub).length_le
  simpa using this

/-- C36: for every password, at least 98 variants are available: `Mutate` returns at least
`min num 98`, with no assumption on the hash. (The variants with two characters in front never
collide with each other under murmur3.) -/
theorem C36_at_least_98 (pw : Bytes) (num : Int) (vs : List Bytes)
    (h : mutate dasRules pw num = .ok vs) : min num 98 ≤ vs.length := by
  have hrg := mutate_ok_range h
  rw [mutate_keep pw num hrg.1 hrg.2] at h
  injection h with h
  have hk := keep_length_ge pw prepend2 (dasRules.map (resultOf pw)) prepend2_strings.1 prepend2_len
    (fun r hr => List.mem_map.mpr ⟨r, (List.mem_filter.mp hr).1, prepend2_result pw r hr⟩)
  rw [prepend2_strings.2] at hk
  generalize keep [Murmur3.sum32 pw] (dasRules.map (resultOf pw)) = l at h hk
  rw [← h, List.length_take]
  omega

/-- C33/C36, concrete case: the empty password with the default count. -/
theorem C36_example : ∃ vs, mutate dasRules [] 98 = .ok vs ∧ vs.length = 98 := by
  obtain ⟨vs, h⟩ := (C37_panics_iff [] 98).2.mpr (by decide)
  refine ⟨vs, h, ?_⟩
  have h1 := C36_at_least_98 [] 98 vs h
  have h2 := (C33_distinct [] 98 vs h).1
  omega

/-! ## Lengths -/

theorem intercalate_length (sep : Bytes) (ps : List Bytes) :
    (sep.intercalate ps).length = (ps.map List.length).sum + (ps.length - 1) * sep.length := by
  induction ps with
  | nil => simp [List.intercalate]
  | cons p ps ih =>
    rcases ps with _ | ⟨q, qs⟩
    · simp [List.intercalate]
    · rw [intercalate_cons2, List.length_append, List.length_append, ih]
      simp only [List.map_cons, List.sum_cons, List.length_cons, Nat.add_sub_cancel]
      rw [Nat.add_mul qs.length 1]
      omega

/-- Size classes of the shipped rules. -/
theorem dasRules_sizes : ∀ r ∈ dasRules,
    (r.ruleType = ascii "d" → r.position.natAbs ≤ 3) ∧
    (r.ruleType = ascii "i" → r.string1.length ≤ 3) ∧
    (r.ruleType = ascii "s" → (r.string1.length = r.string2.length) ∨
      (r.string1.length = 3 ∧ r.string2.length = 4) ∨
      (r.string1.length = 4 ∧ r.string2.length = 3)) := by decide +kernel

/-- C41: lengths of variants. -/
theorem C41_length (pw : Bytes) (num : Int) (vs : List Bytes)
    (h : mutate dasRules pw num = .ok vs) (v : Bytes) (hv : v ∈ vs) :
    v.length ≤ pw.length + max 3 (pw.length / 3) ∧
      pw.length ≤ v.length + max 3 (pw.length / 4) := by
  obtain ⟨r, hr, ho⟩ := (C34_from_rules pw num vs h).2 v hv
  have hsz := dasRules_sizes r hr
  cases ho with
  | c k s1 s2 => simp only [capitalise, List.length_mapIdx]; omega
  | d k s1 s2 =>
    have := hsz.1 rfl
    dsimp only at this
    unfold delete
    split
    · split
      · rw [List.length_drop]; omega
      · rw [List.length_take]; omega
    · omega
  | i k s1 s2 =>
    have := hsz.2.1 rfl
    dsimp only at this
    unfold insertAt
    dsimp only
    split
    · rw [List.length_append, List.length_append, List.length_take, List.length_drop]; omega
    · omega
  | s k s1 s2 pw ps hne hps =>
    have := hsz.2.2 rfl
    dsimp only at this
    have h1 := congrArg List.length hps.join
    rw [intercalate_length] at h1
    rw [intercalate_length]
    generalize ps.length - 1 = n at *
    rcases this with e | ⟨e1, e2⟩ | ⟨e1, e2⟩
    · rw [← e]; omega
    · rw [e1] at h1; rw [e2]; omega
    · rw [e1] at h1; rw [e2]; omega

/-- C41: the upper bound is attained at every multiple of 3 beyond the constant part: the password
`wsxwsx…wsx` has the variant `2wsx2wsx…2wsx`, a third longer (whether or not it is among those
returned first). -/
theorem C41_upper_attained (n : Nat) :
    ∃ r ∈ dasRules, RuleResult r (List.replicate n (ascii "wsx")).flatten
      (List.replicate n (ascii "2wsx")).flatten := by
  refine ⟨⟨ascii "s", 0, ascii "wsx", ascii "2wsx"⟩, by decide +kernel, ?_⟩
  have key : ∀ n, Pieces (ascii "wsx") (List.replicate n (ascii "wsx")).flatten
      (List.replicate (n + 1) []) := by
    intro n
    induction n with
    | zero => exact .last [] (by decide)
    | succ n ih =>
      have := Pieces.cut (old := ascii "wsx") [] _ _ (by simp) ih
      simpa [List.replicate_succ] using this
  have := RuleResult.s 0 (ascii "wsx") (ascii "2wsx") _ _ (by decide) (key n)
  have e : ∀ n, (ascii "2wsx").intercalate (List.replicate (n + 1) [])
      = (List.replicate n (ascii "2wsx")).flatten := by
    intro n
    induction n with
    | zero => rfl
    | succ n ih =>
      rw [List.replicate_succ, List.replicate_succ, intercalate_cons2, ← List.replicate_succ, ih]
      simp [List.replicate_succ]
  rwa [e n] at this

end Migp.Props
