import Verif.Model.Mutator
import Verif.Spec.Mutator
import Verif.Lemmas.Bytes
import Verif.Lemmas.Murmur3
import Mathlib.Order.Basic
import Mathlib.Tactic.Tauto
import Mathlib.Data.Nat.Find
/-! # Lemmas on the mangling rules and the `Mutate` loop -/
namespace Migp.Mutator
open Spec

/-! ## The rules compute their specification -/

/-- All 256 bytes at once. -/
theorem switchCase_eq (b : UInt8) :
    switchCase b = .ok (toggle b) ∨ ((∃ e, switchCase b = .err e) ∧ toggle b = b) := by
  have h : ∀ n : Fin 256, (switchCase (UInt8.ofNat n) = .ok (toggle (UInt8.ofNat n)) ∨
      ((switchCase (UInt8.ofNat n) = .err .invalidRune ∨
        switchCase (UInt8.ofNat n) = .err .notALetter) ∧
        toggle (UInt8.ofNat n) = UInt8.ofNat n)) := by
    decide +kernel
  have := h ⟨b.toNat, b.toNat_lt⟩
  simp only [UInt8.ofNat_toNat] at this
  rcases this with h | ⟨h | h, h2⟩
  · exact .inl h
  · exact .inr ⟨⟨_, h⟩, h2⟩
  · exact .inr ⟨⟨_, h⟩, h2⟩

theorem copyAt_make (b : Bytes) : copyAt (makeBytes b.length) 0 b = .ok b :=
  copyAt_all _ _ (by simp)

theorem capitalise_out (k : Int) (pw : Bytes)
    (h : ¬ (0 ≤ fromEnd k pw.length ∧ fromEnd k pw.length < pw.length)) :
    capitalise k pw = pw := by
  unfold capitalise
  apply List.ext_getElem (by simp)
  intro i h1 h2
  rw [List.getElem_mapIdx, if_neg]
  intro e
  exact h ⟨by omega, by omega⟩

theorem capitalise_in (k : Int) (pw : Bytes) (i : Nat) (hi : i < pw.length)
    (h : fromEnd k pw.length = i) : capitalise k pw = pw.set i (toggle pw[i]) := by
  unfold capitalise
  apply List.ext_getElem (by simp)
  intro j h1 h2
  rw [List.getElem_mapIdx, List.getElem_set]
  by_cases e : j = i
  · subst e; rw [if_pos h.symm, if_pos rfl]
  · rw [if_neg (by omega), if_neg (by omega)]

theorem changeCap_eq (pw : Bytes) (k : Int) : changeCap pw k = .ok (capitalise k pw) := by
  unfold changeCap
  rw [copyAt_make, Res.ok_bind]
  have hk : (if k < 0 then (pw.length : Int) + k else k) = fromEnd k pw.length := rfl
  dsimp only
  rw [hk]
  by_cases h : fromEnd k pw.length ≥ 0 ∧ fromEnd k pw.length < pw.length
  · rw [if_pos h]
    obtain ⟨i, hi⟩ := Int.eq_ofNat_of_zero_le h.1
    have hl : i < pw.length := by omega
    rw [hi]
    simp only [Int.toNat_natCast]
    have hx : index pw i = .ok pw[i] := by
      unfold index; rw [List.getElem?_eq_getElem hl]
    rw [hx, Res.ok_bind, capitalise_in k pw i hl hi]
    rcases switchCase_eq pw[i] with h | ⟨⟨e, h⟩, h2⟩
    · rw [h]; dsimp only; unfold setIndex; rw [if_pos hl]
    · rw [h, h2]; dsimp only; rw [List.set_getElem_self]
  · rw [if_neg h, capitalise_out _ _ h]

theorem deletePortion_eq (pw : Bytes) (k : Int) : deletePortion pw k = .ok (delete k pw) := by
  unfold deletePortion delete
  by_cases h1 : k ≥ 0 ∧ k ≤ pw.length
  · rw [if_pos h1, if_pos (by omega), if_pos h1.1]
    unfold sliceFrom
    rw [if_pos (by omega), Res.ok_bind]
    have : k.toNat = k.natAbs := by omega
    rw [this]
    exact copyAt_all _ _ (by simp; omega)
  · rw [if_neg h1]
    by_cases h2 : k < 0 ∧ (pw.length : Int) + k ≥ 0
    · rw [if_pos h2, if_pos (by omega), if_neg (by omega)]
      unfold slice
      rw [if_pos (by omega), Res.ok_bind]
      have : ((pw.length : Int) + k).toNat = pw.length - k.natAbs := by omega
      rw [this]
      exact copyAt_all _ _ (by simp)
    · rw [if_neg h2, if_neg (by omega)]
      exact copyAt_make pw

theorem insert_eq (pw : Bytes) (k : Int) (s : Bytes) : insert pw k s = .ok (insertAt k s pw) := by
  unfold insert insertAt
  by_cases h0 : pw.length = 0 ∧ (k = 0 ∨ k = -1)
  · rw [if_pos h0]
    have : pw = [] := List.length_eq_zero_iff.mp h0.1
    subst this
    rw [copyAt_make]
    rcases h0.2 with rfl | rfl <;> simp [fromEnd]
  · rw [if_neg h0]
    have hk : (if k < 0 then k + (pw.length : Int) + 1 else k) = fromEnd k (pw.length + 1) := by
      unfold fromEnd; split <;> omega
    dsimp only
    rw [hk]
    by_cases h : 0 ≤ fromEnd k (pw.length + 1) ∧ fromEnd k (pw.length + 1) ≤ pw.length
    · rw [if_pos h, if_pos h]
      obtain ⟨i, hi⟩ := Int.eq_ofNat_of_zero_le h.1
      have hl : i ≤ pw.length := by omega
      rw [hi]
      simp only [Int.toNat_natCast]
      unfold slice sliceFrom
      rw [if_pos ⟨by omega, hl⟩, Res.ok_bind, List.drop_zero, if_pos hl]
      have hm : makeBytes (pw.length + s.length)
          = makeBytes (pw.take i).length ++ (makeBytes s.length ++ makeBytes (pw.drop i).length) := by
        rw [← makeBytes_add, ← makeBytes_add]
        congr 1
        simp only [List.length_take, List.length_drop]; omega
      rw [hm, copyAt_start _ _ _ (by simp), Res.ok_bind,
        copyAt_mid (pw.take i) (makeBytes s.length) _ s i (by simp; omega) (by simp), Res.ok_bind,
        Res.ok_bind, ← List.append_assoc, copyAt_end (pw.take i ++ s) _ _ _ (by simp; omega) (by simp)]
    · rw [if_neg h, if_neg h, copyAt_make]

/-! ## ReplaceAll -/

theorem replaceNonempty_nil (old new : Bytes) : replaceNonempty old new [] = [] := by
  rw [replaceNonempty, replaceGo]

theorem replaceGo_skip (old new t rest : Bytes) :
    replaceGo old new t.length (t ++ rest) = replaceGo old new 0 rest := by
  induction t with
  | nil => rfl
  | cons b t ih => rw [List.length_cons, List.cons_append, replaceGo, ih]

theorem replaceNonempty_hit (old new rest : Bytes) (h : old ≠ []) :
    replaceNonempty old new (old ++ rest) = new ++ replaceNonempty old new rest := by
  rcases old with _ | ⟨b, t⟩
  · exact absurd rfl h
  · rw [replaceNonempty, List.cons_append, replaceGo, if_pos]
    · rw [List.length_cons, Nat.add_sub_cancel, replaceGo_skip]; rfl
    · rw [List.isPrefixOf_iff_prefix, ← List.cons_append]
      exact List.prefix_append _ _

theorem replaceNonempty_miss (old new : Bytes) (b : UInt8) (s : Bytes) (h : ¬ old <+: b :: s) :
    replaceNonempty old new (b :: s) = b :: replaceNonempty old new s := by
  rw [replaceNonempty, replaceGo, if_neg]
  · rfl
  · intro h2
    exact h (List.isPrefixOf_iff_prefix.mp h2)

theorem replaceNonempty_skip (old new : Bytes) (p s : Bytes)
    (h : ∀ k < p.length, ¬ old <+: (p ++ s).drop k) :
    replaceNonempty old new (p ++ s) = p ++ replaceNonempty old new s := by
  induction p with
  | nil => rfl
  | cons b p ih =>
    rw [List.cons_append, replaceNonempty_miss, ih]
    · rfl
    · intro k hk
      have := h (k + 1) (by simpa using hk)
      simpa using this
    · simpa using h 0 (by simp)

theorem intercalate_cons2 (new p q : Bytes) (ps : List Bytes) :
    new.intercalate (p :: q :: ps) = p ++ new ++ new.intercalate (q :: ps) := by
  simp [List.intercalate, List.intersperse]

theorem _root_.Migp.Spec.Pieces.ne_nil {old s : Bytes} {ps : List Bytes} (h : Pieces old s ps) : ps ≠ [] := by
  cases h <;> simp

theorem infix_drop {old s : Bytes} (k : Nat) (h : old <+: s.drop k) : old <:+: s :=
  h.isInfix.trans (List.drop_suffix k s).isInfix

/-- Joining the pieces with `new` is what `ReplaceAll` returns. -/
theorem replaceNonempty_pieces {old new s : Bytes} {ps : List Bytes} (hne : old ≠ [])
    (h : Pieces old s ps) : replaceNonempty old new s = new.intercalate ps := by
  induction h with
  | last s hs =>
    have := replaceNonempty_skip old new s [] (by
      intro k hk; rw [List.append_nil]; exact fun hp => hs (infix_drop k hp))
    rw [List.append_nil, replaceNonempty_nil, List.append_nil] at this
    rw [this]; simp [List.intercalate]
  | cut p rest ps hp hps ih =>
    rw [List.append_assoc, replaceNonempty_skip, replaceNonempty_hit _ _ _ hne, ih]
    · obtain ⟨q, qs, rfl⟩ := List.exists_cons_of_ne_nil hps.ne_nil
      rw [intercalate_cons2, List.append_assoc]
    · intro k hk; rw [← List.append_assoc]; exact hp k hk

/-- The pieces exist. -/
theorem exists_pieces (old : Bytes) (hne : old ≠ []) : ∀ s, ∃ ps, Pieces old s ps := by
  intro s
  induction hn : s.length using Nat.strong_induction_on generalizing s with
  | _ n ih =>
    by_cases h : old <:+: s
    · -- leftmost occurrence
      have hex : ∃ k, old <+: s.drop k := by
        obtain ⟨a, b, rfl⟩ := h
        refine ⟨a.length, ?_⟩
        rw [List.append_assoc, List.drop_left]
        exact List.prefix_append _ _
      classical
      let k := Nat.find hex
      obtain ⟨rest, hrest⟩ := Nat.find_spec hex
      have hk : ∀ j < k, ¬ old <+: s.drop j := fun j hj => Nat.find_min hex hj
      have hs : s = s.take k ++ old ++ rest := by
        rw [List.append_assoc, hrest, List.take_append_drop]
      have hkl : k ≤ s.length := by
        by_contra hc
        have : s.drop k = [] := List.drop_of_length_le (by omega)
        have h2 := Nat.find_spec hex
        rw [show Nat.find hex = k from rfl, this] at h2
        exact hne (List.prefix_nil.mp h2)
      have hl : (s.take k).length = k := by simp [hkl]
      have hlen : rest.length < n := by
        have := congrArg List.length hs
        have hpos := List.length_pos_iff.mpr hne
        simp only [List.length_append] at this
        omega
      obtain ⟨ps, hps⟩ := ih rest.length hlen rest rfl
      refine ⟨s.take k :: ps, ?_⟩
      have hc := Pieces.cut (old := old) (s.take k) rest ps (by
        intro j hj; rw [← hs]; exact hk j (by omega)) hps
      rwa [← hs] at hc
    · exact ⟨[s], .last s h⟩

/-- The pieces are unique. -/
theorem _root_.Migp.Spec.Pieces.unique {old s : Bytes} {ps qs : List Bytes} (h1 : Pieces old s ps)
    (h2 : Pieces old s qs) : ps = qs := by
  induction h1 generalizing qs with
  | last s hs =>
    generalize hs' : s = s' at h2
    cases h2 with
    | last _ _ => rfl
    | cut p rest qs _ _ =>
      subst hs'; exact absurd ⟨p, rest, rfl⟩ hs
  | cut p rest ps hp hps ih =>
    generalize hs' : p ++ old ++ rest = s' at h2
    cases h2 with
    | last _ hs => subst hs'; exact absurd ⟨p, rest, rfl⟩ hs
    | cut p' rest' qs hp' hqs =>
      have hl : p.length = p'.length := by
        rcases Nat.lt_trichotomy p.length p'.length with h | h | h
        · exfalso; apply hp' _ h; rw [← hs', List.append_assoc, List.drop_left]
          exact List.prefix_append _ _
        · exact h
        · exfalso; apply hp _ h; rw [hs', List.append_assoc, List.drop_left]
          exact List.prefix_append _ _
      rw [List.append_assoc, List.append_assoc] at hs'
      obtain ⟨rfl, h3⟩ := List.append_inj hs' hl
      obtain ⟨-, rfl⟩ := List.append_inj h3 rfl
      rw [ih hqs]

theorem _root_.Migp.Spec.Pieces.join {old s : Bytes} {ps : List Bytes} (h : Pieces old s ps) :
    old.intercalate ps = s := by
  induction h with
  | last s _ => simp [List.intercalate]
  | cut p rest ps _ hps ih =>
    obtain ⟨q, qs, rfl⟩ := List.exists_cons_of_ne_nil hps.ne_nil
    rw [intercalate_cons2, ih]

/-! ## The loop -/

/-- The results kept when the hashes `seen` are excluded. -/
def keep (seen : List UInt32) : List Bytes → List Bytes
  | [] => []
  | y :: ys =>
    if Murmur3.sum32 y ∈ seen then keep seen ys else y :: keep (Murmur3.sum32 y :: seen) ys

theorem mutateLoop_eq (pw : Bytes) (num : Int) (f : RDasRule → Bytes) (rules : List RDasRule)
    (hf : ∀ r ∈ rules, applyRule r pw = .ok (f r)) (j : Int) (hj : j ≤ num) (seen : List UInt32)
    (muts : List Bytes) :
    mutateLoop pw num rules j seen muts
      = .ok (muts ++ (keep seen (rules.map f)).take (num - j).toNat) := by
  induction rules generalizing j seen muts with
  | nil => simp [mutateLoop, keep]
  | cons r rules ih =>
    rw [mutateLoop]
    by_cases hlt : j < num
    · rw [if_pos hlt, hf r (by simp), Res.ok_bind]
      dsimp only
      have hf' : ∀ r ∈ rules, applyRule r pw = .ok (f r) := fun r hr => hf r (by simp [hr])
      rw [List.map_cons, keep]
      by_cases hs : Murmur3.sum32 (f r) ∈ seen
      · rw [if_pos (by simpa using hs), ih hf' j hj, if_pos hs]
      · rw [if_neg (by simpa using hs), ih hf' (j + 1) (by omega), if_neg hs]
        have : (num - j).toNat = (num - (j + 1)).toNat + 1 := by omega
        rw [this, List.take_succ_cons, List.append_assoc]
        rfl
    · rw [if_neg hlt]
      have : (num - j).toNat = 0 := by omega
      rw [this]; simp

theorem mem_keep_hash (seen : List UInt32) (ys : List Bytes) (h : UInt32) :
    (h ∈ seen ∨ h ∈ (keep seen ys).map Murmur3.sum32) ↔ (h ∈ seen ∨ h ∈ ys.map Murmur3.sum32) := by
  induction ys generalizing seen with
  | nil => simp [keep]
  | cons y ys ih =>
    rw [keep]
    split
    · rename_i hs
      rw [ih seen]
      simp only [List.map_cons, List.mem_cons]
      constructor
      · rintro (h | h) <;> simp [h]
      · rintro (h | rfl | h)
        · simp [h]
        · simp [hs]
        · simp [h]
    · have := ih (Murmur3.sum32 y :: seen)
      simp only [List.map_cons, List.mem_cons] at this ⊢
      tauto

theorem keep_eq_filter (pw : Bytes) (ys pre : List Bytes) (seen : List UInt32)
    (hs : ∀ h, h ∈ seen ↔ h ∈ (pw :: pre).map Murmur3.sum32) :
    keep seen ys = ((ys.zipIdx pre.length).filter
      (fun x => decide (Fresh (pw :: (pre ++ ys).take x.2) x.1))).map (·.1) := by
  induction ys generalizing pre seen with
  | nil => rfl
  | cons y ys ih =>
    rw [keep, List.zipIdx_cons, List.filter_cons]
    have hfr : Fresh (pw :: (pre ++ y :: ys).take pre.length) y ↔ ¬ Murmur3.sum32 y ∈ seen := by
      rw [List.take_left, hs]
      unfold Fresh
      simp only [List.mem_map, not_exists, not_and]
    have hpre : pre ++ y :: ys = (pre ++ [y]) ++ ys := by simp
    have hlen : pre.length + 1 = (pre ++ [y]).length := by simp
    by_cases h : Murmur3.sum32 y ∈ seen
    · rw [if_pos h, if_neg (by rw [decide_eq_true_eq]; exact fun hc => hfr.mp hc h), hpre, hlen]
      apply ih
      intro k
      rw [hs k]
      simp only [List.map_cons, List.map_append, List.mem_cons, List.mem_append, List.map_nil,
        List.not_mem_nil, or_false]
      constructor
      · rintro (h | h) <;> simp [h]
      · rintro (h1 | h1 | h1)
        · simp [h1]
        · simp [h1]
        · have := (hs k).mp (by rw [h1]; exact h)
          simpa using this
    · rw [if_neg h, if_pos (by rw [decide_eq_true_eq]; exact hfr.mpr h), List.map_cons, hpre, hlen]
      congr 1
      apply ih
      intro k
      simp only [List.mem_cons, List.map_cons, List.map_append, List.mem_append, List.map_nil,
        List.not_mem_nil, or_false, hs k]
      generalize Murmur3.sum32 y = a
      generalize Murmur3.sum32 pw = b
      generalize List.map Murmur3.sum32 pre = c
      tauto

theorem keep_eq_freshResults (pw : Bytes) (ys : List Bytes) :
    keep [Murmur3.sum32 pw] ys = freshResults pw ys := by
  have := keep_eq_filter pw ys [] [Murmur3.sum32 pw] (by simp)
  simpa [freshResults] using this

theorem keep_nodup (seen : List UInt32) (ys : List Bytes) :
    ((keep seen ys).map Murmur3.sum32).Nodup ∧
      ∀ h ∈ seen, h ∉ (keep seen ys).map Murmur3.sum32 := by
  induction ys generalizing seen with
  | nil => simp [keep]
  | cons y ys ih =>
    rw [keep]
    split
    · exact ih seen
    · rename_i hs
      obtain ⟨h1, h2⟩ := ih (Murmur3.sum32 y :: seen)
      rw [List.map_cons]
      refine ⟨List.nodup_cons.mpr ⟨h2 _ (by simp), h1⟩, ?_⟩
      intro h hh
      rw [List.mem_cons, not_or]
      refine ⟨?_, h2 _ (by simp [hh])⟩
      rintro rfl; exact hs hh

theorem keep_sublist (seen : List UInt32) (ys : List Bytes) : (keep seen ys).Sublist ys := by
  induction ys generalizing seen with
  | nil => exact List.Sublist.slnil
  | cons y ys ih =>
    rw [keep]
    split
    · exact (ih seen).cons _
    · exact (ih _).cons_cons _

theorem keep_append (seen : List UInt32) (xs ys : List Bytes) :
    ∃ seen', (∀ h, h ∈ seen' ↔ h ∈ seen ∨ h ∈ xs.map Murmur3.sum32) ∧
      keep seen (xs ++ ys) = keep seen xs ++ keep seen' ys := by
  induction xs generalizing seen with
  | nil => exact ⟨seen, by simp, by simp [keep]⟩
  | cons x xs ih =>
    rw [List.cons_append, keep, keep]
    by_cases h : Murmur3.sum32 x ∈ seen
    · obtain ⟨s', h1, h2⟩ := ih seen
      refine ⟨s', ?_, by rw [if_pos h, if_pos h, h2]⟩
      intro k
      rw [h1, List.map_cons, List.mem_cons]
      constructor
      · rintro (h | h) <;> simp [h]
      · rintro (h3 | h3 | h3)
        · exact .inl h3
        · rw [h3]; exact .inl h
        · exact .inr h3
    · obtain ⟨s', h1, h2⟩ := ih (Murmur3.sum32 x :: seen)
      refine ⟨s', ?_, by rw [if_neg h, if_neg h, h2]; rfl⟩
      intro k
      rw [h1, List.map_cons, List.mem_cons, List.mem_cons, or_assoc, or_left_comm]

end Migp.Mutator
