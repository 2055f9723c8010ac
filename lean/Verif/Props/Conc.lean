import Verif.Lemmas.Conc
import Verif.Lemmas.Insert
/-!
# C48, C49: the store under concurrency
-/
namespace Migp.Props
open Migp.Spec

/-- C48: every history of the store, for any number of goroutines and any interleaving of their steps,
is linearisable. -/
theorem C48_linearizable (h : List Ev) (s : Conc) (he : Conc.Exec h s) : Linearizable h := by
  obtain ⟨l, hl⟩ := Conc.sim he
  exact ⟨l, hl.erase, Conc.sim_threads hl, hl.legal⟩

/-- C48: no data race on the map: while a goroutine writes to it or is about to, no other goroutine
reads or writes it or is about to. -/
theorem C48_race_free (h : List Ev) (s : Conc) (he : Conc.Exec h s) (t t' : Nat)
    (hw : (s.pc t).Writes) (ha : (s.pc t').Writes ∨ (s.pc t').Reads) : t = t' := by
  have hi := Conc.lockInv he
  obtain ⟨l, hs⟩ := Conc.sim he
  have hwr : ∀ t, (s.pc t).Writes → ∃ op, Conc.held (s.pc t) = some op ∧ lockOf op = .write := by
    intro t hw
    cases hp : s.pc t with
    | idle => rw [hp] at hw; exact hw.elim
    | called op => rw [hp] at hw; exact hw.elim
    | locked op =>
      rw [hp] at hw
      cases op with
      | put id v => exact ⟨_, rfl, rfl⟩
      | append id v => exact hw.elim
      | get id => exact hw.elim
    | loaded op v =>
      rw [hp] at hw
      cases op with
      | put id v => exact hw.elim
      | append id v => exact ⟨_, rfl, rfl⟩
      | get id => exact hw.elim
    | writing op id saved new =>
      refine ⟨op, rfl, ?_⟩
      rcases (hs.writing t op id saved new hp).2 with rfl | ⟨v, rfl, -⟩ <;> rfl
    | finished op r => rw [hp] at hw; exact hw.elim
    | unlocked op r => rw [hp] at hw; exact hw.elim
  obtain ⟨op, ht, hk⟩ := hwr t hw
  have : ∃ op', Conc.held (s.pc t') = some op' := by
    rcases ha with ha | ha
    · obtain ⟨op', e, -⟩ := hwr t' ha; exact ⟨op', e⟩
    · cases hp : s.pc t' with
      | locked op => exact ⟨op, rfl⟩
      | idle => rw [hp] at ha; exact ha.elim
      | called op => rw [hp] at ha; exact ha.elim
      | loaded op v => exact ⟨op, rfl⟩
      | writing op id saved new => exact ⟨op, rfl⟩
      | finished op r => exact ⟨op, rfl⟩
      | unlocked op r => rw [hp] at ha; exact ha.elim
  obtain ⟨op', ht'⟩ := this
  exact (Conc.only_writer hi ht hk ht').symm

/-- C48: no deadlock: as long as some goroutine is in a call, some goroutine in a call can make a step
(one that is not a new call). -/
theorem C48_no_deadlock (h : List Ev) (s : Conc) (he : Conc.Exec h s) (t : Nat)
    (ht : s.pc t ≠ .idle) : ∃ l s', Conc.Step s l s' ∧ ∀ t op, l ≠ some (.inv t op) := by
  have hi := Conc.lockInv he
  have hl := Conc.liveInv he
  by_cases hh : ∃ t op, Conc.held (s.pc t) = some op
  · obtain ⟨t, op, hh⟩ := hh
    cases hp : s.pc t with
    | idle => rw [hp] at hh; cases hh
    | called op => rw [hp] at hh; cases hh
    | locked op =>
      cases op with
      | put id v => exact ⟨_, _, .beginPut s t id v s.store hp, by intros; simp⟩
      | append id v => exact ⟨_, _, .loadAppend s t id v hp, by intros; simp⟩
      | get id => exact ⟨_, _, .loadGet s t id hp, by intros; simp⟩
    | loaded op v =>
      cases op with
      | put id w => exact absurd rfl (hl.load t _ v hp id w)
      | append id w => exact ⟨_, _, .beginAppend s t id w v s.store hp, by intros; simp⟩
      | get id => exact ⟨_, _, .retGet s t id v hp, by intros; simp⟩
    | writing op id saved new => exact ⟨_, _, .endWrite s t op id saved new hp, by intros; simp⟩
    | finished op r =>
      cases hk : lockOf op with
      | write => exact ⟨_, _, .unlock s t op r hp hk, by intros; simp⟩
      | read => exact ⟨_, _, .runlock s t op r hp hk, by intros; simp⟩
    | unlocked op r => rw [hp] at hh; cases hh
  · have hno : ∀ t op, Conc.held (s.pc t) ≠ some op := fun t op e => hh ⟨t, op, e⟩
    have hw : s.writer = false := by
      cases hw : s.writer with
      | false => rfl
      | true =>
        obtain ⟨t', op, e, -⟩ := hl.writer hw
        exact absurd e (hno t' op)
    have hr : s.readers = 0 := by
      obtain ⟨rs, n, le, m⟩ := hi.readers
      cases rs with
      | nil => exact le.symm
      | cons a rs =>
        obtain ⟨op, e, -⟩ := (m a).mp (by simp)
        exact absurd e (hno a op)
    cases hp : s.pc t with
    | idle => exact absurd hp ht
    | called op =>
      cases hk : lockOf op with
      | write => exact ⟨_, _, .lock s t op hp hk hw hr, by intros; simp⟩
      | read => exact ⟨_, _, .rlock s t op hp hk hw, by intros; simp⟩
    | locked op => exact absurd (by rw [hp]; rfl) (hno t op)
    | loaded op v => exact absurd (by rw [hp]; rfl) (hno t op)
    | writing op id saved new => exact absurd (by rw [hp]; rfl) (hno t op)
    | finished op r => exact absurd (by rw [hp]; rfl) (hno t op)
    | unlocked op r => exact ⟨_, _, .ret s t op r hp, by intros; simp⟩

end Migp.Props
