import Verif.Go.Bufio
import Verif.Spec.Lines
import Mathlib.Tactic.ByContra
/-!
# Lines and the scanner
-/
namespace Migp.Bufio
open Migp.Spec

theorem append_newline_inj {a b r s : Bytes} (ha : 10 ∉ a) (hb : 10 ∉ b) (h : a ++ 10 :: r = b ++ 10 :: s) :
    a = b ∧ r = s := by
  induction a generalizing b with
  | nil =>
    cases b with
    | nil => simpa using h
    | cons x b =>
      simp only [List.nil_append, List.cons_append, List.cons.injEq] at h
      exact absurd (h.1 ▸ List.mem_cons_self) hb
  | cons y a ih =>
    cases b with
    | nil =>
      simp only [List.nil_append, List.cons_append, List.cons.injEq] at h
      exact absurd (h.1 ▸ List.mem_cons_self) ha
    | cons x b =>
      simp only [List.cons_append, List.cons.injEq] at h
      obtain ⟨rfl, h⟩ := h
      obtain ⟨rfl, h'⟩ := ih (fun h => ha (List.mem_cons_of_mem _ h))
        (fun h => hb (List.mem_cons_of_mem _ h)) h
      exact ⟨rfl, h'⟩

/-- The first line of data with a newline. -/
theorem IsLines.cons_inv {l r : Bytes} {ls : List Bytes} (hl : 10 ∉ l) (h : IsLines (l ++ 10 :: r) ls) :
    ∃ ls', ls = l :: ls' ∧ IsLines r ls' := by
  generalize hd : l ++ 10 :: r = d at h
  cases h with
  | empty => simp at hd
  | last l' h1 h2 => exact absurd (hd ▸ by simp) h2
  | line l' rest ls' h1 h2 =>
    obtain ⟨rfl, rfl⟩ := append_newline_inj hl h1 hd
    exact ⟨_, rfl, h2⟩

theorem IsLines.single_inv {l : Bytes} {ls : List Bytes} (hl : 10 ∉ l) (h : IsLines l ls) :
    ls = if l = [] then [] else [l] := by
  cases h with
  | empty => rfl
  | last l' h1 h2 => rw [if_neg h1]
  | line l' rest ls' h1 h2 => exact absurd (by simp) hl

theorem IsLines.unique {d : Bytes} {ls ls' : List Bytes} (h : IsLines d ls) (h' : IsLines d ls') : ls = ls' := by
  induction h generalizing ls' with
  | empty => exact (IsLines.single_inv (by simp) h').symm
  | last l h1 h2 => rw [IsLines.single_inv h2 h', if_neg h1]
  | line l rest ls hl _ ih =>
    obtain ⟨ls'', rfl, h''⟩ := IsLines.cons_inv hl h'
    rw [ih h'']

theorem exists_first_newline (d : Bytes) : 10 ∉ d ∨ ∃ l r, d = l ++ 10 :: r ∧ 10 ∉ l := by
  by_cases h : (10 : UInt8) ∈ d
  · right
    obtain ⟨l, r, h1, h2⟩ := List.eq_append_cons_of_mem h
    exact ⟨l, r, h1, h2⟩
  · exact .inl h

theorem IsLines.exists (d : Bytes) : ∃ ls, IsLines d ls := by
  induction hn : d.length using Nat.strongRecOn generalizing d with
  | _ n ih =>
    rcases exists_first_newline d with h | ⟨l, r, rfl, h⟩
    · by_cases hd : d = []
      · exact ⟨[], hd ▸ .empty⟩
      · exact ⟨[d], .last d hd h⟩
    · obtain ⟨ls, hls⟩ := ih r.length (by rw [← hn, List.length_append, List.length_cons]; omega) r rfl
      exact ⟨_, .line l r ls h hls⟩

theorem idxOf?_newline {d : Bytes} : (d.idxOf? 10 = none ∧ 10 ∉ d) ∨
    ∃ l r, d = l ++ 10 :: r ∧ 10 ∉ l ∧ d.idxOf? 10 = some l.length := by
  rcases exists_first_newline d with h | ⟨l, r, rfl, h⟩
  · exact .inl ⟨List.idxOf?_eq_none_iff.mpr h, h⟩
  · right
    refine ⟨l, r, rfl, h, ?_⟩
    induction l with
    | nil => simp [List.idxOf?_cons]
    | cons x l ih =>
      simp only [List.mem_cons, not_or] at h
      rw [List.cons_append, List.idxOf?_cons, if_neg (by simpa using fun e => h.1 e.symm), ih h.2]
      rfl

/-- A line of more than 65535 bytes comes first. -/
theorem IsLines.long {d : Bytes} {ls : List Bytes} (h : IsLines d ls) {a b : Bytes} (hd : d = a ++ b)
    (ha : 10 ∉ a) (hl : 65536 ≤ a.length) : ∃ l ls', ls = l :: ls' ∧ 65536 ≤ l.length := by
  cases h with
  | empty =>
    have := congrArg List.length hd
    simp at this
    omega
  | last l h1 h2 =>
    refine ⟨_, [], rfl, ?_⟩
    rw [hd, List.length_append]; omega
  | line l rest ls h1 h2 =>
    refine ⟨l, ls, rfl, ?_⟩
    by_contra hlt
    apply ha
    have : (l ++ 10 :: rest)[l.length]? = some 10 := by simp
    rw [hd, List.getElem?_append_left (by omega)] at this
    exact List.mem_of_getElem? this

/-- What holds between turns. -/
structure Inv (s : Scanner) : Prop where
  fits : s.start + s.held.length ≤ s.size
  size : s.size ≤ 65536
  ended : s.ended = true → s.rest = [] ∧ s.held.length ≤ 65535

/-- What is still to come of the work. -/
def work (s : Scanner) : Nat := 2 * s.held.length + 3 * s.rest.length + (if s.ended then 0 else 1)

/-- What the scanner sees of the lines. -/
def seen (ls : List Bytes) : List Bytes := (ls.takeWhile (fun l => l.length ≤ 65535)).map dropCR

theorem fill_spec (s : Scanner) (h : Inv s) (he : s.ended = false) :
    (s.fill = .stop ∧ 65536 ≤ s.held.length) ∨
    ∃ s', s.fill = .again s' ∧ Inv s' ∧ work s' < work s ∧ s'.held ++ s'.rest = s.held ++ s.rest := by
  obtain ⟨chunk, rest, start, held, size, ended⟩ := s
  obtain ⟨h1, h2, h3⟩ := h
  dsimp only at h1 h2 h3 he
  subst he
  unfold Scanner.fill
  dsimp only
  -- after the shift
  generalize hst : (if 0 < start ∧ (start + held.length = size ∨ size / 2 < start) then
      ({ chunk := chunk, rest := rest, start := 0, held := held, size := size, ended := false } : Scanner)
      else { chunk := chunk, rest := rest, start := start, held := held, size := size, ended := false }) = s1
  have hs1 : ∃ st, s1 = ⟨chunk, rest, st, held, size, false⟩ ∧ st + held.length ≤ size ∧ (st + held.length = size → st = 0) := by
    split at hst
    · exact ⟨0, hst.symm, by omega, fun _ => rfl⟩
    · refine ⟨start, hst.symm, h1, ?_⟩
      intro h
      by_contra h0
      rename_i hn
      exact hn ⟨by omega, .inl h⟩
  obtain ⟨st, rfl, h4, h5⟩ := hs1
  dsimp only
  split
  · rename_i hfull
    left
    have := h5 hfull.1
    exact ⟨rfl, by omega⟩
  · rename_i hnf
    right
    generalize hg : (if st + held.length = size then
        ({ chunk := chunk, rest := rest, start := 0, held := held,
           size := min (if size * 2 = 0 then 4096 else size * 2) 65536, ended := false } : Scanner)
        else { chunk := chunk, rest := rest, start := st, held := held, size := size, ended := false }) = s2
    have hs2 : ∃ st' sz', s2 = ⟨chunk, rest, st', held, sz', false⟩ ∧ st' + held.length < sz' ∧ sz' ≤ 65536 := by
      split at hg
      · rename_i hfull
        have h0 := h5 hfull
        refine ⟨0, _, hg.symm, ?_, by omega⟩
        split <;> omega
      · exact ⟨st, size, hg.symm, by omega, h2⟩
    obtain ⟨st', sz', rfl, h6, h7⟩ := hs2
    dsimp only
    split
    · rename_i hr
      subst hr
      refine ⟨_, rfl, ⟨?_, ?_, ?_⟩, ?_, ?_⟩
      · dsimp only; omega
      · exact h7
      · intro _; exact ⟨rfl, by dsimp only; omega⟩
      · simp [work]
      · simp
    · rename_i hr
      have hpos := List.length_pos_iff.mpr hr
      generalize hn : min (max 1 (chunk rest.length)) (sz' - (st' + held.length)) = n
      refine ⟨_, rfl, ⟨?_, ?_, ?_⟩, ?_, ?_⟩
      · simp only [List.length_append, List.length_take]; omega
      · exact h7
      · intro h; exact absurd h (by simp)
      · simp only [work, List.length_append, List.length_take, List.length_drop]
        omega
      · simp

theorem run_spec (fuel : Nat) (s : Scanner) (h : Inv s) (hf : work s < fuel) (ls : List Bytes)
    (hls : IsLines (s.held ++ s.rest) ls) : s.run fuel = seen ls := by
  induction fuel generalizing s ls with
  | zero => omega
  | succ fuel ih =>
    have hturn : (∃ l r, s.held = l ++ 10 :: r ∧ 10 ∉ l ∧
          s.turn = .token (dropCR l) { s with start := s.start + (l.length + 1), held := r }) ∨
        (10 ∉ s.held ∧ s.ended = true ∧ s.held ≠ [] ∧
          s.turn = .token (dropCR s.held) { s with start := s.start + s.held.length, held := [] }) ∨
        (s.held = [] ∧ s.ended = true ∧ s.turn = .stop) ∨
        (10 ∉ s.held ∧ s.ended = false ∧ s.turn = s.fill) := by
      unfold Scanner.turn scanLines
      rcases idxOf?_newline (d := s.held) with ⟨h1, h2⟩ | ⟨l, r, h1, h2, h3⟩
      · right
        rw [h1]
        by_cases he : s.ended = true
        · by_cases hh : s.held = []
          · right; left
            refine ⟨hh, he, ?_⟩
            rw [if_pos (.inr he), if_pos ⟨he, hh⟩]
            dsimp only
            rw [if_pos he]
          · left
            refine ⟨h2, he, hh, ?_⟩
            rw [if_pos (.inr he), if_neg (fun h => hh h.2)]
            dsimp only
            rw [if_pos he]
            simp
        · right; right
          have he' : s.ended = false := by simpa using he
          refine ⟨h2, he', ?_⟩
          split
          · rw [if_neg (fun h => he h.1)]
            dsimp only
            obtain ⟨_, _, _, _, _, _⟩ := s
            cases he'
            rfl
          · dsimp only
            rw [if_neg he]
            simp
      · left
        refine ⟨l, r, h1, h2, ?_⟩
        have hne : s.held ≠ [] := by rw [h1]; simp
        rw [if_pos (.inl hne), if_neg (fun h => hne h.2), h3]
        dsimp only
        rw [h1]
        simp
    rw [Scanner.run]
    obtain ⟨i1, i2, i3⟩ := h
    rcases hturn with ⟨l, r, h1, h2, h3⟩ | ⟨h1, h2, h3, h4⟩ | ⟨h1, h2, h3⟩ | ⟨h1, h2, h3⟩
    · rw [h3]
      dsimp only
      rw [h1, List.append_assoc, List.cons_append] at hls
      obtain ⟨ls', rfl, hls'⟩ := IsLines.cons_inv h2 hls
      have hlen : s.held.length = l.length + (r.length + 1) := by rw [h1]; simp
      rw [ih { s with start := s.start + (l.length + 1), held := r }
        ⟨by dsimp only; omega, i2, fun h => ⟨(i3 h).1, by have := (i3 h).2; dsimp only; omega⟩⟩
        (by unfold work at *; dsimp only; omega) _ hls']
      unfold seen
      rw [List.takeWhile_cons, if_pos (by simp; omega)]
      rfl
    · rw [h4]
      dsimp only
      obtain ⟨h5, h6⟩ := i3 h2
      rw [h5, List.append_nil] at hls
      rw [IsLines.single_inv h1 hls, if_neg h3]
      rw [ih { s with start := s.start + s.held.length, held := [] }
        ⟨by dsimp only [List.length_nil]; omega, i2, fun h => ⟨h5, by simp⟩⟩
        (by
          have := List.length_pos_iff.mpr h3
          unfold work at *; dsimp only [List.length_nil]; omega) [] (by dsimp only; rw [h5]; exact .empty)]
      unfold seen
      rw [List.takeWhile_cons, if_pos (by simpa using h6)]
      rfl
    · rw [h3]
      dsimp only
      rw [h1, (i3 h2).1] at hls
      rw [IsLines.single_inv (l := []) (by simp) hls]
      rfl
    · rw [h3]
      rcases fill_spec s ⟨i1, i2, i3⟩ h2 with ⟨h4, h5⟩ | ⟨s', h4, h5, h6, h7⟩
      · rw [h4]
        dsimp only
        obtain ⟨l, ls', rfl, hl⟩ := IsLines.long hls rfl h1 h5
        unfold seen
        rw [List.takeWhile_cons, if_neg (by simp; omega)]
        rfl
      · rw [h4]
        dsimp only
        exact ih s' h5 (by omega) ls (by rw [h7]; exact hls)

theorem scannedLines_eq (chunk : Nat → Nat) (file : Bytes) (ls : List Bytes) (h : IsLines file ls) :
    scannedLines chunk file = seen ls := by
  unfold scannedLines
  apply run_spec
  · exact ⟨by simp [Scanner.new], by simp [Scanner.new], fun h => by simp [Scanner.new] at h⟩
  · simp [work, Scanner.new]
  · exact h

theorem dropCR_chomped (l : Bytes) : IsChomped l (dropCR l) := by
  unfold dropCR
  rcases List.eq_nil_or_concat l with rfl | ⟨l', x, rfl⟩
  · exact .none [] (by simp)
  · rw [List.concat_eq_append]
    by_cases hx : x = 13
    · subst hx
      simp only [List.getLast?_append, List.getLast?_singleton, Option.some_or, if_true,
        List.dropLast_concat]
      exact .cr l'
    · rw [if_neg (by simpa using hx)]
      refine .none _ ?_
      intro l'' h
      have := List.append_inj_right' h rfl
      simp at this
      exact hx this

theorem IsChomped.unique {l a b : Bytes} (h : IsChomped l a) (h' : IsChomped l b) : a = b := by
  generalize hl : l = l0 at h'
  cases h with
  | cr a =>
    cases h' with
    | cr b => exact List.append_inj_left' hl rfl
    | none _ h => exact absurd hl.symm (h _)
  | none _ h =>
    cases h' with
    | cr b => exact absurd hl (h _)
    | none _ _ => exact hl

end Migp.Bufio
