import Verif.Spec.Input
import Verif.Lemmas.Bufio
import Mathlib.Data.List.TakeWhile
/-! # The scanner on any reader -/
namespace Migp.Bufio
open Spec

variable {σ : Type} {r : Reader σ}

theorem bytesRead_append (a b : List InEvent) : bytesRead (a ++ b) = bytesRead a ++ bytesRead b := by
  induction a with
  | nil => rfl
  | cons e a ih =>
    rw [List.cons_append]
    cases e with
    | read got =>
      cases got with
      | none => exact ih
      | some x => rw [bytesRead, bytesRead, ih, List.append_assoc]
    | line l => exact ih
    | stop => exact ih

theorem linesOut_append (a b : List InEvent) : linesOut (a ++ b) = linesOut a ++ linesOut b := by
  induction a with
  | nil => rfl
  | cons e a ih =>
    rw [List.cons_append]
    cases e with
    | read got => exact ih
    | line l => rw [linesOut, linesOut, ih, List.cons_append]
    | stop => exact ih

/-- What holds after the events `t`. -/
structure Good (t : List InEvent) (s : Input σ) : Prop where
  fits : s.start + s.held.length ≤ s.size
  size : s.size ≤ 65536
  failed : s.failed = true → s.held.length ≤ 65535 ∧ .read none ∈ t
  empties : 0 < s.empties → s.failed = false ∧ 10 ∉ s.held ∧ s.start + s.held.length < s.size
  lines : ∃ ls last, bytesRead t = ls.flatMap (fun l => l ++ [10]) ++ (last ++ s.held) ∧ (∀ l ∈ ls, 10 ∉ l ∧ l.length ≤ 65535) ∧
    (last = [] ∧ linesOut t = ls.map dropCR ∨
      last ≠ [] ∧ 10 ∉ last ∧ last.length ≤ 65535 ∧ s.failed = true ∧ s.held = [] ∧ linesOut t = (ls ++ [last]).map dropCR)

theorem Good.new (state : σ) : Good [] (Input.new state) := 
  ⟨by simp [Input.new], by simp [Input.new], fun h => by simp [Input.new] at h, fun h => by simp [Input.new] at h,
    [], [], rfl, nofun, .inl ⟨rfl, rfl⟩⟩

/-- A call of `Read` with something like a line begun, and room in the buffer. -/
theorem read_good {t : List InEvent} {s : Input σ} (h : Good t s) (hf : s.failed = false) (hn : 10 ∉ s.held)
    (hr : s.start + s.held.length < s.size) :
    ∃ got s', s.read r = .read got s' ∧ Good (t ++ [.read got]) s' := by
  obtain ⟨state, start, held, size, failed, empties⟩ := s
  obtain ⟨h1, h2, h3, h4, ls, last, h5, h6, h7⟩ := h
  dsimp only at *
  have hlast : last = [] ∧ linesOut t = ls.map dropCR := by
    rcases h7 with h | h
    · exact h
    · rw [hf] at h; simp at h
  clear h7
  obtain ⟨rfl, h7⟩ := hlast
  have fail : ∀ st : σ, Good (t ++ [.read none]) (⟨st, start, held, size, true, 0⟩ : Input σ) := by
    intro st
    refine ⟨h1, h2, fun _ => ⟨by dsimp only; omega, by simp⟩, fun h => by simp at h, ls, [], ?_, h6, .inl ⟨rfl, ?_⟩⟩
    · rw [bytesRead_append, h5]; simp [bytesRead]
    · rw [linesOut_append, h7]; simp [linesOut]
  unfold Input.read
  dsimp only
  cases (r state (size - (start + held.length))).1 with
  | none => exact ⟨_, _, rfl, fail _⟩
  | some b =>
    dsimp only
    by_cases hb : size - (start + held.length) < b.length
    · rw [if_pos hb]; exact ⟨_, _, rfl, fail _⟩
    · rw [if_neg hb]
      by_cases hne : b ≠ []
      · rw [if_pos hne]
        refine ⟨_, _, rfl, ?_, h2, fun h => by dsimp only at h; rw [hf] at h; simp at h, fun h => by simp at h, ls, [], ?_, h6,
          .inl ⟨rfl, ?_⟩⟩
        · dsimp only; rw [List.length_append]; omega
        · rw [bytesRead_append, h5]; simp [bytesRead]
        · rw [linesOut_append, h7]; simp [linesOut]
      · rw [if_neg hne]
        split
        · exact ⟨_, _, rfl, fail _⟩
        · refine ⟨_, _, rfl, h1, h2, fun h => by dsimp only at h; rw [hf] at h; simp at h, fun _ => ⟨hf, hn, hr⟩, ls, [], ?_, h6, .inl ⟨rfl, ?_⟩⟩
          · rw [bytesRead_append, h5]; simp [bytesRead]
          · rw [linesOut_append, h7]; simp [linesOut]

/-- Making room. -/
theorem room_spec (s : Input σ) (h1 : s.start + s.held.length ≤ s.size) (h2 : s.size ≤ 65536) :
    (s.room = none ∧ 65536 ≤ s.held.length) ∨
    ∃ s', s.room = some s' ∧ s'.start + s'.held.length < s'.size ∧ s'.size ≤ 65536 ∧ s'.held = s.held ∧ s'.failed = s.failed ∧
      s'.empties = s.empties ∧ s'.state = s.state := by
  obtain ⟨state, start, held, size, failed, empties⟩ := s
  dsimp only at h1 h2
  unfold Input.room
  dsimp only
  generalize hst : (if 0 < start ∧ (start + held.length = size ∨ size / 2 < start) then
      (⟨state, 0, held, size, failed, empties⟩ : Input σ) else ⟨state, start, held, size, failed, empties⟩) = s1
  have hs1 : ∃ st, s1 = ⟨state, st, held, size, failed, empties⟩ ∧ st + held.length ≤ size ∧ (st + held.length = size → st = 0) := by
    split at hst
    · exact ⟨0, hst.symm, by omega, fun _ => rfl⟩
    · refine ⟨start, hst.symm, h1, ?_⟩
      intro h
      by_contra h0
      rename_i hn
      exact hn ⟨by omega, .inl h⟩
  obtain ⟨st, rfl, h4, h5⟩ := hs1
  dsimp only
  by_cases hfull : st + held.length = size
  · have := h5 hfull
    rw [if_pos hfull]
    by_cases hbig : 65536 ≤ size
    · rw [if_pos hbig]; exact .inl ⟨rfl, by omega⟩
    · rw [if_neg hbig]
      refine .inr ⟨_, rfl, ?_, by dsimp only; omega, rfl, rfl, rfl, rfl⟩
      dsimp only
      split <;> omega
  · rw [if_neg hfull]
    exact .inr ⟨_, rfl, by dsimp only; omega, h2, rfl, rfl, rfl, rfl⟩

/-- What a step can be. -/
theorem step_good {t : List InEvent} {s : Input σ} (h : Good t s) :
    (∃ got s', s.step r = .read got s' ∧ 10 ∉ s.held ∧ s.failed = false ∧
      (∃ s1 : Input σ, s1.state = s.state ∧ s1.held = s.held ∧ s1.failed = s.failed ∧ s1.start + s1.held.length < s1.size ∧
        s1.read r = .read got s') ∧ Good (t ++ [.read got]) s') ∨
    (∃ l s', s.step r = .line l s' ∧ s'.held.length < s.held.length ∧ s'.failed = s.failed ∧ s'.state = s.state ∧ s.empties = 0 ∧
      s'.empties = 0 ∧ Good (t ++ [.line l]) s') ∨
    (s.step r = .stop ∧ 10 ∉ s.held ∧ (s.failed = true ∧ s.held = [] ∧ .read none ∈ t ∨ s.failed = false ∧ 65536 ≤ s.held.length)) := by
  unfold Input.step
  by_cases hem : 0 < s.empties
  · rw [if_pos hem]
    obtain ⟨g1, g2, g3⟩ := h.empties hem
    obtain ⟨got, s', k1, k2⟩ := read_good (r := r) h g1 g2 g3
    exact .inl ⟨got, s', k1, g2, g1, ⟨s, rfl, rfl, rfl, g3, k1⟩, k2⟩
  rw [if_neg hem]
  have hem0 : s.empties = 0 := by omega
  obtain ⟨state, start, held, size, failed, empties⟩ := s
  have hgood := h
  obtain ⟨h1, h2, h3, h4, ls, last, h5, h6, h7⟩ := h
  dsimp only at *
  subst hem0
  rcases idxOf?_newline (d := held) with ⟨i1, i2⟩ | ⟨l, rest, i1, i2, i3⟩
  · by_cases hf : failed = true
    · by_cases hh : held = []
      · right; right
        subst hh
        refine ⟨?_, i2, .inl ⟨hf, rfl, (h3 hf).2⟩⟩
        rw [if_pos (.inr hf)]
        unfold scanLines
        rw [if_pos ⟨hf, rfl⟩]
        dsimp only
        rw [if_pos hf]
      · right; left
        have hlast : last = [] ∧ linesOut t = ls.map dropCR := by
          rcases h7 with h | h
          · exact h
          · exact absurd h.2.2.2.2.1 hh
        clear h7
        obtain ⟨rfl, h7⟩ := hlast
        rw [if_pos (.inr hf)]
        unfold scanLines
        rw [if_neg (fun h => hh h.2), i1]
        dsimp only
        rw [if_pos hf]
        dsimp only
        rw [List.drop_length]
        refine ⟨_, _, rfl, List.length_pos_iff.mpr hh, rfl, rfl, rfl, rfl, ?_, h2, fun _ => ⟨by simp, List.mem_append_left _ (h3 hf).2⟩, fun h => by simp at h, ls, held,
          ?_, h6, .inr ⟨hh, i2, (h3 hf).1, hf, rfl, ?_⟩⟩
        · simpa using h1
        · rw [bytesRead_append, h5]; simp [bytesRead]
        · rw [linesOut_append, h7]; simp [linesOut]
    · have hf' : failed = false := by simpa using hf
      have ht : (if held ≠ [] ∨ failed = true then scanLines held failed else (0, none)) = (0, none) := by
        split
        · unfold scanLines
          rw [if_neg (fun h => hf h.1), i1]
          dsimp only
          rw [if_neg hf]
        · rfl
      rw [ht]
      dsimp only
      rw [if_neg hf, List.drop_zero, Nat.add_zero]
      rcases room_spec (⟨state, start, held, size, failed, 0⟩ : Input σ) h1 h2 with ⟨k1, k2⟩ | ⟨s', k1, k2, k3, k4, k5, k6, k7⟩
      · rw [k1]
        exact .inr (.inr ⟨rfl, i2, .inr ⟨hf', k2⟩⟩)
      · rw [k1]
        left
        dsimp only at k4 k5 k6
        have hg : Good t s' := by
          refine ⟨by omega, k3, fun h => ?_, fun h => by omega, ls, last, by rw [k4]; exact h5, h6, ?_⟩
          · rw [k5, hf'] at h; simp at h
          · rw [k5, k4]; exact h7
        obtain ⟨got, s'', g1, g2⟩ := read_good (r := r) hg (k5.trans hf') (by rw [k4]; exact i2) k2
        exact ⟨got, s'', g1, i2, hf', ⟨s', k7, k4, k5, k2, g1⟩, g2⟩
  · right; left
    have hne : held ≠ [] := by rw [i1]; simp
    have hlast : last = [] ∧ linesOut t = ls.map dropCR := by
      rcases h7 with h | h
      · exact h
      · exact absurd h.2.2.2.2.1 hne
    clear h7
    obtain ⟨rfl, h7⟩ := hlast
    rw [if_pos (.inl hne)]
    unfold scanLines
    rw [if_neg (fun h => hne h.2), i3]
    dsimp only
    have hlen : held.length = l.length + (rest.length + 1) := by rw [i1]; simp
    have hd : held.drop (l.length + 1) = rest := by rw [i1]; simp
    have ht : held.take l.length = l := by rw [i1]; simp
    rw [hd, ht]
    refine ⟨_, _, rfl, by dsimp only; omega, rfl, rfl, rfl, rfl, by dsimp only; omega, h2, fun h => ⟨by have := (h3 h).1; dsimp only; omega, List.mem_append_left _ (h3 h).2⟩,
      fun h => by simp at h, ls ++ [l], [], ?_, ?_, .inl ⟨rfl, ?_⟩⟩
    · rw [bytesRead_append, h5, i1]; simp [bytesRead]
    · intro x hx
      rcases List.mem_append.mp hx with hx | hx
      · exact h6 x hx
      · rw [List.mem_singleton.mp hx]; exact ⟨i2, by omega⟩
    · rw [linesOut_append, h7]; simp [linesOut]

/-- When the scanner asks for more, all whole lines were handed out. -/
theorem run_prompt (n : Nat) {t : List InEvent} {s : Input σ} (h : Good t s) (a : List InEvent) (got : Option Bytes)
    (b : List InEvent) (he : s.run r n = a ++ .read got :: b) :
    ∃ ls rest, WholeLinesOf (bytesRead (t ++ a)) ls rest ∧ linesOut (t ++ a) = ls.map dropCR ∧ ∀ l ∈ ls, l.length ≤ 65535 := by
  induction n generalizing t s a with
  | zero => simp [Input.run] at he
  | succ n ih =>
    rw [Input.run] at he
    rcases step_good (r := r) h with ⟨got', s', h1, h2, h3, -, h4⟩ | ⟨l, s', h1, -, -, -, -, -, h4⟩ | ⟨h1, -, -⟩
    · rw [h1] at he
      dsimp only at he
      cases a with
      | nil =>
        obtain ⟨-, -, -, -, ls, last, k1, k2, k3⟩ := h
        have hlast : last = [] ∧ linesOut t = ls.map dropCR := by
          rcases k3 with h | h
          · exact h
          · rw [h3] at h; simp at h
        clear k3
        obtain ⟨rfl, k3⟩ := hlast
        rw [List.append_nil]
        exact ⟨ls, s.held, ⟨k1, fun l hl => (k2 l hl).1, h2⟩, k3, fun l hl => (k2 l hl).2⟩
      | cons e a =>
        rw [List.cons_append] at he
        injection he with e1 e2
        subst e1
        have := ih h4 a e2
        rw [List.append_assoc] at this
        exact this
    · rw [h1] at he
      dsimp only at he
      cases a with
      | nil => injection he with e1 _; cases e1
      | cons e a =>
        rw [List.cons_append] at he
        injection he with e1 e2
        subst e1
        have := ih h4 a e2
        rw [List.append_assoc] at this
        exact this
    · rw [h1] at he
      dsimp only at he
      cases a with
      | nil => injection he with e1 _; cases e1
      | cons e a =>
        rw [List.cons_append] at he
        injection he with e1 e2
        simp at e2

theorem isLines_of_whole {d rest : Bytes} {ls : List Bytes} (h : WholeLinesOf d ls rest) :
    IsLines d (ls ++ if rest = [] then [] else [rest]) := by
  obtain ⟨rfl, h1, h2⟩ := h
  induction ls with
  | nil =>
    split
    · rename_i h; subst h; exact .empty
    · rename_i h; exact .last rest h h2
  | cons l ls ih =>
    have := IsLines.line l _ _ (h1 l List.mem_cons_self) (ih (fun x hx => h1 x (List.mem_cons_of_mem _ hx)))
    simpa using this

/-- When `Scan` returns false, the lines handed out are those of the bytes read, up to the first that is too long. -/
theorem run_stop (n : Nat) {t : List InEvent} {s : Input σ} (h : Good t s) (hs : .stop ∈ s.run r n) :
    ∃ ls, IsLines (bytesRead (t ++ s.run r n)) ls ∧ linesOut (t ++ s.run r n) = seen ls := by
  induction n generalizing t s with
  | zero => simp [Input.run] at hs
  | succ n ih =>
    rw [Input.run] at hs ⊢
    rcases step_good (r := r) h with ⟨got', s', h1, h2, h3, -, h4⟩ | ⟨l, s', h1, -, -, -, -, -, h4⟩ | ⟨h1, h2, h3⟩
    · rw [h1] at hs ⊢
      dsimp only at hs ⊢
      have := ih h4 (by simpa using hs)
      rw [List.append_assoc] at this
      exact this
    · rw [h1] at hs ⊢
      dsimp only at hs ⊢
      have := ih h4 (by simpa using hs)
      rw [List.append_assoc] at this
      exact this
    · rw [h1]
      dsimp only
      obtain ⟨-, -, -, -, ls, last, k1, k2, k3⟩ := h
      have hb : bytesRead (t ++ [.stop]) = bytesRead t := by rw [bytesRead_append]; simp [bytesRead]
      have hl : linesOut (t ++ [.stop]) = linesOut t := by rw [linesOut_append]; simp [linesOut]
      rw [hb, hl]
      rcases k3 with ⟨rfl, k3⟩ | ⟨g1, g2, g3, g4, g5, g6⟩
      · rw [List.nil_append] at k1
        have hw := isLines_of_whole ⟨k1, fun l hl => (k2 l hl).1, h2⟩
        refine ⟨_, hw, ?_⟩
        rw [k3]
        unfold seen
        rw [List.takeWhile_append_of_pos (fun x hx => decide_eq_true (k2 x hx).2)]
        rcases h3 with ⟨-, h3, -⟩ | ⟨-, h3⟩
        · rw [h3]; simp
        · rw [if_neg (by intro e; rw [e] at h3; simp at h3), List.takeWhile_cons, if_neg (by simp; omega), List.append_nil]
      · rw [g5, List.append_nil] at k1
        have hw := isLines_of_whole ⟨k1, fun l hl => (k2 l hl).1, g2⟩
        rw [if_neg g1] at hw
        refine ⟨_, hw, ?_⟩
        rw [g6]
        unfold seen
        rw [List.takeWhile_eq_self_iff.mpr]
        intro x hx
        rcases List.mem_append.mp hx with hx | hx
        · exact decide_eq_true (k2 x hx).2
        · rw [List.mem_singleton.mp hx]; exact decide_eq_true g3

/-- Why `Scan` returns false. -/
theorem run_why (n : Nat) {t : List InEvent} {s : Input σ} (h : Good t s) (hs : .stop ∈ s.run r n) :
    .read none ∈ t ++ s.run r n ∨
    ∃ ls rest, WholeLinesOf (bytesRead (t ++ s.run r n)) ls rest ∧ 65536 ≤ rest.length := by
  induction n generalizing t s with
  | zero => simp [Input.run] at hs
  | succ n ih =>
    rw [Input.run] at hs ⊢
    rcases step_good (r := r) h with ⟨got', s', h1, h2, h3, -, h4⟩ | ⟨l, s', h1, -, -, -, -, -, h4⟩ | ⟨h1, h2, h3⟩
    · rw [h1] at hs ⊢
      dsimp only at hs ⊢
      have := ih h4 (by simpa using hs)
      rw [List.append_assoc] at this
      exact this
    · rw [h1] at hs ⊢
      dsimp only at hs ⊢
      have := ih h4 (by simpa using hs)
      rw [List.append_assoc] at this
      exact this
    · rw [h1]
      dsimp only
      rcases h3 with ⟨-, -, h3⟩ | ⟨h3, h5⟩
      · exact .inl (List.mem_append_left _ h3)
      · right
        obtain ⟨-, -, -, -, ls, last, k1, k2, k3⟩ := h
        have hb : bytesRead (t ++ [.stop]) = bytesRead t := by rw [bytesRead_append]; simp [bytesRead]
        have hlast : last = [] := by
          rcases k3 with h | h
          · exact h.1
          · rw [h3] at h; simp at h
        subst hlast
        rw [hb]
        exact ⟨ls, s.held, ⟨k1, fun l hl => (k2 l hl).1, h2⟩, h5⟩

/-- At any time the lines handed out are the first of those in the bytes read. -/
theorem Good.prefix {t : List InEvent} {s : Input σ} (h : Good t s) {ls : List Bytes} (hl : IsLines (bytesRead t) ls) :
    ∃ more, seen ls = linesOut t ++ more := by
  obtain ⟨-, -, -, -, ls', last, k1, k2, k3⟩ := h
  have key : ∀ d : Bytes, ∃ ld, IsLines d ld ∧ IsLines (ls'.flatMap (fun l => l ++ [10]) ++ d) (ls' ++ ld) := by
    intro d
    obtain ⟨ld, hd⟩ := IsLines.exists d
    refine ⟨ld, hd, ?_⟩
    clear k1 k3
    induction ls' with
    | nil => exact hd
    | cons l ls' ih =>
      have := IsLines.line l _ _ (k2 l List.mem_cons_self).1 (ih (fun x hx => k2 x (List.mem_cons_of_mem _ hx)))
      simpa using this
  obtain ⟨ld, hd, hw⟩ := key (last ++ s.held)
  rw [← k1] at hw
  obtain rfl := IsLines.unique hl hw
  have hseen : seen (ls' ++ ld) = ls'.map dropCR ++ seen ld := by
    unfold seen
    rw [List.takeWhile_append_of_pos (fun x hx => decide_eq_true (k2 x hx).2), List.map_append]
  rcases k3 with ⟨-, k3⟩ | ⟨g1, g2, g3, -, g5, g6⟩
  · exact ⟨_, by rw [hseen, k3]⟩
  · rw [g5, List.append_nil] at hd
    have := IsLines.single_inv g2 hd
    rw [if_neg g1] at this
    subst this
    refine ⟨[], ?_⟩
    rw [hseen, g6, List.append_nil, List.map_append]
    unfold seen
    rw [List.takeWhile_cons, if_pos (decide_eq_true g3)]
    rfl

theorem run_split (n : Nat) {t : List InEvent} {s : Input σ} (h : Good t s) (a b : List InEvent) (e : InEvent)
    (he : s.run r n = a ++ e :: b) (hne : e ≠ .stop) : ∃ s' : Input σ, Good (t ++ a ++ [e]) s' := by
  induction n generalizing t s a with
  | zero => simp [Input.run] at he
  | succ n ih =>
    rw [Input.run] at he
    rcases step_good (r := r) h with ⟨got', s', h1, -, -, -, h4⟩ | ⟨l, s', h1, -, -, -, -, -, h4⟩ | ⟨h1, -, -⟩
    · rw [h1] at he
      dsimp only at he
      cases a with
      | nil =>
        injection he with e1 _
        subst e1
        exact ⟨s', by rw [List.append_nil]; exact h4⟩
      | cons x a =>
        injection he with e1 e2
        subst e1
        have := ih h4 a e2
        rw [List.append_assoc t] at this
        exact this
    · rw [h1] at he
      dsimp only at he
      cases a with
      | nil =>
        injection he with e1 _
        subst e1
        exact ⟨s', by rw [List.append_nil]; exact h4⟩
      | cons x a =>
        injection he with e1 e2
        subst e1
        have := ih h4 a e2
        rw [List.append_assoc t] at this
        exact this
    · rw [h1] at he
      dsimp only at he
      cases a with
      | nil => injection he with e1 _; exact absurd e1.symm hne
      | cons x a => injection he with e1 e2; simp at e2

/-- Every step is an event, until the end. -/
theorem run_length (n : Nat) (s : Input σ) : (s.run r n).length = n ∨ .stop ∈ s.run r n := by
  induction n generalizing s with
  | zero => exact .inl rfl
  | succ n ih =>
    rw [Input.run]
    cases s.step r with
    | read got s' =>
      rcases ih s' with h | h
      · exact .inl (by simp [h])
      · exact .inr (by simp [h])
    | line l s' =>
      rcases ih s' with h | h
      · exact .inl (by simp [h])
      · exact .inr (by simp [h])
    | stop => exact .inr (by simp)

/-! ## A file -/

theorem disk_read {chunk : Nat → Nat} (s : Input Bytes) (hr : s.start + s.held.length < s.size) :
    (s.state = [] ∧ s.read (diskReader chunk) = .read none { s with failed := true, empties := 0 }) ∨
    ∃ b rest, b ≠ [] ∧ s.state = b ++ rest ∧
      s.read (diskReader chunk) = .read (some b) { s with state := rest, held := s.held ++ b, empties := 0 } := by
  obtain ⟨state, start, held, size, failed, empties⟩ := s
  dsimp only at hr
  unfold Input.read diskReader
  dsimp only
  by_cases h : state = []
  · subst h
    left
    rw [if_pos rfl]
    exact ⟨rfl, rfl⟩
  · right
    rw [if_neg h]
    dsimp only
    have hpos := List.length_pos_iff.mpr h
    generalize hn : min (max 1 (chunk state.length)) (size - (start + held.length)) = n
    have hne : state.take n ≠ [] := by
      rw [← List.length_pos_iff, List.length_take]; omega
    rw [if_neg (by rw [List.length_take]; omega), if_pos hne]
    exact ⟨_, _, hne, (List.take_append_drop n state).symm, rfl⟩

/-- A file is read to its end, or to a line that is too long. -/
theorem disk_run {chunk : Nat → Nat} (file : Bytes) (n : Nat) {t : List InEvent} {s : Input Bytes} (h : Good t s)
    (hb : bytesRead t ++ s.state = file) (hf : s.failed = true → s.state = []) (he : s.empties = 0)
    (hn : 2 * s.held.length + 3 * s.state.length + (if s.failed then 0 else 1) < n) :
    .stop ∈ s.run (diskReader chunk) n ∧
    (bytesRead (t ++ s.run (diskReader chunk) n) = file ∨
      ∃ ls rest more, WholeLinesOf (bytesRead (t ++ s.run (diskReader chunk) n)) ls rest ∧ 65536 ≤ rest.length ∧
        file = bytesRead (t ++ s.run (diskReader chunk) n) ++ more ∧ ∀ l ∈ ls, l.length ≤ 65535) := by
  induction n generalizing t s with
  | zero => omega
  | succ n ih =>
    rw [Input.run]
    rcases step_good (r := diskReader chunk) h with ⟨got, s', h1, h2, h3, ⟨s1, e1, e2, e3, e4, e5⟩, h4⟩ |
      ⟨l, s', h1, g1, g2, g3, g4, g5, h4⟩ | ⟨h1, h2, h3⟩
    · rcases disk_read (chunk := chunk) s1 e4 with ⟨k1, k2⟩ | ⟨b, rest, k0, k1, k2⟩
      · rw [e5] at k2
        injection k2 with k2 k3
        subst k2 k3
        rw [h1]
        dsimp only
        have := ih h4 (by rw [bytesRead_append, ← hb, ← e1, k1]; simp [bytesRead, k1]) (fun _ => k1) rfl (by
          rw [h3] at hn
          simp only [Bool.false_eq_true, if_false] at hn
          dsimp only
          rw [if_pos rfl, e2, e1]
          omega)
        rw [List.append_assoc] at this
        exact ⟨List.mem_cons_of_mem _ this.1, this.2⟩
      · rw [e5] at k2
        injection k2 with k2 k3
        subst k2 k3
        rw [h1]
        dsimp only
        have hpos := List.length_pos_iff.mpr k0
        have := ih h4 (by rw [bytesRead_append, ← hb, ← e1, k1]; simp [bytesRead]) (fun h => by
            dsimp only at h; rw [e3, h3] at h; simp at h) rfl (by
          rw [h3] at hn
          simp only [Bool.false_eq_true, if_false] at hn
          dsimp only
          rw [← e1, ← e2, k1, List.length_append] at hn
          rw [e3, h3, List.length_append]
          simp only [Bool.false_eq_true, if_false]
          omega)
        rw [List.append_assoc] at this
        exact ⟨List.mem_cons_of_mem _ this.1, this.2⟩
    · rw [h1]
      dsimp only
      have := ih h4 (by rw [bytesRead_append, g3, ← hb]; simp [bytesRead]) (fun h => by
          rw [g3]; exact hf (g2 ▸ h)) g5 (by rw [g2, g3]; omega)
      rw [List.append_assoc] at this
      exact ⟨List.mem_cons_of_mem _ this.1, this.2⟩
    · rw [h1]
      dsimp only
      have hb' : bytesRead (t ++ [.stop]) = bytesRead t := by rw [bytesRead_append]; simp [bytesRead]
      refine ⟨by simp, ?_⟩
      rw [hb']
      rcases h3 with ⟨h3, -, -⟩ | ⟨h3, h5⟩
      · left
        rw [hf h3, List.append_nil] at hb
        exact hb
      · right
        obtain ⟨-, -, -, -, ls, last, k1, k2, k3⟩ := h
        have hlast : last = [] := by
          rcases k3 with h | h
          · exact h.1
          · rw [h3] at h; simp at h
        subst hlast
        exact ⟨ls, s.held, s.state, ⟨k1, fun l hl => (k2 l hl).1, h2⟩, h5, hb.symm, fun l hl => (k2 l hl).2⟩

theorem disk_lines (chunk : Nat → Nat) (file : Bytes) (n : Nat) (hn : 3 * file.length + 1 < n) :
    .stop ∈ (Input.new file).run (diskReader chunk) n ∧
    ∀ ls, IsLines file ls → linesOut ((Input.new file).run (diskReader chunk) n) = seen ls := by
  obtain ⟨h1, h2⟩ := disk_run (chunk := chunk) file n (Good.new file) (by simp [bytesRead, Input.new])
    (fun h => by simp [Input.new] at h) rfl (by simp only [Input.new]; simpa using hn)
  refine ⟨h1, fun ls hls => ?_⟩
  obtain ⟨ls', k1, k2⟩ := run_stop n (Good.new file) h1
  rw [List.nil_append] at k1 k2 h2
  rw [k2]
  rcases h2 with h2 | ⟨w, rest, more, g1, g2, g3, g4⟩
  · rw [h2] at k1
    rw [IsLines.unique k1 hls]
  · have e1 := isLines_of_whole g1
    rw [if_neg (by intro e; rw [e] at g2; simp at g2)] at e1
    rw [IsLines.unique k1 e1]
    have key : ∃ l ls2, ls = w ++ l :: ls2 ∧ 65536 ≤ l.length := by
      obtain ⟨ld, hd⟩ := IsLines.exists (rest ++ more)
      obtain ⟨l, ls2, rfl, hl⟩ := IsLines.long hd rfl g1.2.2 g2
      have hw : IsLines file (w ++ l :: ls2) := by
        rw [g3, g1.1, List.append_assoc]
        have hn' := g1.2.1
        clear g1 g3 k1 k2 e1 hls g4
        induction w with
        | nil => exact hd
        | cons x w ih =>
          have := IsLines.line x _ _ (hn' x List.mem_cons_self) (ih (fun y hy => hn' y (List.mem_cons_of_mem _ hy)))
          simpa using this
      exact ⟨l, ls2, IsLines.unique hls hw, hl⟩
    obtain ⟨l, ls2, rfl, hl⟩ := key
    unfold seen
    rw [List.takeWhile_append_of_pos (fun x hx => decide_eq_true (g4 x hx)),
      List.takeWhile_append_of_pos (fun x hx => decide_eq_true (g4 x hx)), List.takeWhile_cons, if_neg (by simp; omega),
      List.takeWhile_cons, if_neg (by simp; omega)]

end Migp.Bufio
