import Verif.Spec.ServerLock
import Verif.Lemmas.ServerConc
/-!
# Go's lock keeps what a lock promises
-/
namespace Migp
open Spec

section
variable {ι : Type} [DecidableEq ι]

/-! ### Counting goroutines -/

/-- Exactly `n` goroutines are such. -/
def Cnt (p : ι → Prop) (n : Nat) : Prop := ∃ L : List ι, L.Nodup ∧ L.length = n ∧ ∀ u, u ∈ L ↔ p u

theorem Cnt.same {p q : ι → Prop} {n : Nat} (h : Cnt p n) (e : ∀ u, q u ↔ p u) : Cnt q n := by
  obtain ⟨L, h1, h2, h3⟩ := h
  exact ⟨L, h1, h2, fun u => (h3 u).trans (e u).symm⟩

theorem Cnt.add {p q : ι → Prop} {n : Nat} (h : Cnt p n) {t : ι} (ht : ¬ p t) (e : ∀ u, q u ↔ u = t ∨ p u) :
    Cnt q (n + 1) := by
  obtain ⟨L, h1, h2, h3⟩ := h
  refine ⟨t :: L, List.nodup_cons.mpr ⟨fun hm => ht ((h3 t).mp hm), h1⟩, by rw [List.length_cons, h2], fun u => ?_⟩
  rw [List.mem_cons, h3, e]

theorem Cnt.del {p q : ι → Prop} {n : Nat} (h : Cnt p n) {t : ι} (ht : p t) (e : ∀ u, q u ↔ u ≠ t ∧ p u) :
    n ≠ 0 ∧ Cnt q (n - 1) := by
  obtain ⟨L, h1, h2, h3⟩ := h
  have hm := (h3 t).mpr ht
  refine ⟨?_, L.erase t, h1.erase t, by rw [List.length_erase_of_mem hm, h2], fun u => ?_⟩
  · rintro rfl
    rw [List.length_eq_zero_iff.mp h2] at hm; cases hm
  · rw [h1.mem_erase_iff, h3, e]

theorem Cnt.pos {p : ι → Prop} {n : Nat} (h : Cnt p n) {t : ι} (ht : p t) : n ≠ 0 :=
  (h.del (q := fun u => u ≠ t ∧ p u) ht fun _ => Iff.rfl).1

theorem Cnt.some {p : ι → Prop} {n : Nat} (h : Cnt p n) (hn : n ≠ 0) : ∃ u, p u := by
  obtain ⟨L, -, h2, h3⟩ := h
  cases L with
  | nil => exact absurd h2.symm hn
  | cons u L => exact ⟨u, (h3 u).mp (by simp)⟩

theorem Cnt.both {p q : ι → Prop} {n m : Nat} (hp : Cnt p n) (hq : Cnt q m) (h : ∀ u, p u → ¬ q u) :
    Cnt (fun u => p u ∨ q u) (n + m) := by
  obtain ⟨L, h1, h2, h3⟩ := hp
  obtain ⟨M, k1, k2, k3⟩ := hq
  refine ⟨L ++ M, ?_, by rw [List.length_append, h2, k2], fun u => by rw [List.mem_append, h3, k3]⟩
  exact List.nodup_append.mpr ⟨h1, k1, fun a ha b hb e => h a ((h3 a).mp ha) (by rw [e]; exact (k3 b).mp hb)⟩

theorem Cnt.few (hf : Few ι) {p : ι → Prop} {n : Nat} (h : Cnt p n) : (n : Int) < maxReaders := by
  obtain ⟨L, h1, h2, -⟩ := h
  rw [← h2]; exact hf L h1

/-! ### The lock -/

/-- Who has the inner mutex, and how far it is. -/
inductive Phase (ι : Type) where
  | free
  | hasW (t : ι)
  | announced (t : ι) (r : Int)
  | asleep (t : ι)
  | crit
  | releasing (t : ι) (n : Nat)

/-- The place of that goroutine in the method of the lock. -/
def Phase.pc : Phase ι → Option (ι × LockPc)
  | .free => none
  | .hasW t => some (t, .hasW)
  | .announced t r => some (t, .announced r)
  | .asleep t => some (t, .sleepW)
  | .crit => none
  | .releasing t n => some (t, .releasing n)

/-- A place where a goroutine has the inner mutex. -/
def LockPc.Writing : LockPc → Prop
  | .hasW => True
  | .announced _ => True
  | .sleepW => True
  | .releasing _ => True
  | _ => False

/-- The counters: `A` goroutines hold the lock for reading, `Q` wait for it, `S` are leaving, `W` are waking the
writer. -/
def Phase.Ok (lk : RWMutex) (writer : Bool) (A Q S W : Nat) : Phase ι → Prop
  | .free => lk.w = false ∧ writer = false ∧ lk.readerCount = A + Q ∧ lk.readerWait = 0 ∧ lk.writerSem = 0 ∧ S = 0 ∧ W = 0 ∧
      lk.readerSem = Q
  | .hasW _ => lk.w = true ∧ writer = false ∧ lk.readerCount = A + Q ∧ lk.readerWait = 0 ∧ lk.writerSem = 0 ∧ S = 0 ∧
      W = 0 ∧ lk.readerSem = Q
  | .announced _ r => lk.w = true ∧ writer = false ∧ lk.readerCount = A + Q - maxReaders ∧ lk.writerSem = 0 ∧ W = 0 ∧
      lk.readerWait ≤ 0 ∧ r + lk.readerWait = A + lk.readerSem + S ∧ lk.readerSem ≤ Q ∧ r < maxReaders
  | .asleep _ => lk.w = true ∧ writer = false ∧ lk.readerCount = A + Q - maxReaders ∧
      lk.writerSem + W = (if lk.readerWait = 0 then 1 else 0) ∧ lk.readerWait = A + lk.readerSem + S ∧ lk.readerSem ≤ Q ∧
      lk.readerWait < maxReaders
  | .crit => lk.w = true ∧ writer = true ∧ lk.readerCount = Q - maxReaders ∧ lk.readerWait = 0 ∧ lk.writerSem = 0 ∧
      S = 0 ∧ W = 0 ∧ lk.readerSem = 0 ∧ A = 0
  | .releasing _ n => lk.w = true ∧ writer = false ∧ lk.readerCount = A + Q ∧ lk.readerWait = 0 ∧ lk.writerSem = 0 ∧ S = 0 ∧
      W = 0 ∧ lk.readerSem + n = Q

/-- The lock, the places of the goroutines and who holds the lock fit together. -/
structure LInv (ph : Phase ι) (lk : RWMutex) (writer : Bool) (A Q S W : Nat) (pc : ι → LockPc) : Prop where
  at_ : ∀ t c, ph.pc = some (t, c) → pc t = c
  only : ∀ u, (pc u).Writing → ph.pc = some (u, pc u)
  queue : Cnt (fun u => pc u = .sleepR) Q
  leaving : Cnt (fun u => pc u = .leaving) S
  waking : Cnt (fun u => pc u = .waking) W
  ok : ph.Ok lk writer A Q S W

/-- A goroutine moves to another place. -/
theorem Cnt.move_same {pc : ι → LockPc} {n : Nat} {x : LockPc} (h : Cnt (fun u => pc u = x) n) {t : ι} {c : LockPc}
    (h1 : pc t ≠ x) (h2 : c ≠ x) : Cnt (fun u => Function.update pc t c u = x) n :=
  h.same fun u => by
    by_cases e : u = t
    · subst e; rw [Function.update_self]; exact ⟨fun h => (h2 h).elim, fun h => (h1 h).elim⟩
    · rw [Function.update_of_ne e]

theorem Cnt.move_add {pc : ι → LockPc} {n : Nat} {x : LockPc} (h : Cnt (fun u => pc u = x) n) {t : ι}
    (h1 : pc t ≠ x) : Cnt (fun u => Function.update pc t x u = x) (n + 1) :=
  h.add h1 fun u => by
    by_cases e : u = t
    · subst e; rw [Function.update_self]; simp
    · rw [Function.update_of_ne e]; simp [e]

theorem Cnt.move_del {pc : ι → LockPc} {n : Nat} {x : LockPc} (h : Cnt (fun u => pc u = x) n) {t : ι} {c : LockPc}
    (h1 : pc t = x) (h2 : c ≠ x) : n ≠ 0 ∧ Cnt (fun u => Function.update pc t c u = x) (n - 1) :=
  h.del h1 fun u => by
    by_cases e : u = t
    · subst e; rw [Function.update_self]; simp [h2]
    · rw [Function.update_of_ne e]; simp [e]

/-- A goroutine that does not have the inner mutex moves, and does not get it. -/
theorem LInv.move {ph ph' : Phase ι} {lk lk' : RWMutex} {w w' : Bool} {A A' Q Q' S S' W W' : Nat} {pc : ι → LockPc}
    (i : LInv ph lk w A Q S W pc) {t : ι} {c : LockPc} (hp : ph'.pc = ph.pc) (ht : ¬ (pc t).Writing) (hc : ¬ c.Writing)
    (q : Cnt (fun u => Function.update pc t c u = .sleepR) Q') (l : Cnt (fun u => Function.update pc t c u = .leaving) S')
    (k : Cnt (fun u => Function.update pc t c u = .waking) W') (ok : ph'.Ok lk' w' A' Q' S' W') :
    LInv ph' lk' w' A' Q' S' W' (Function.update pc t c) := by
  refine ⟨fun u d h => ?_, fun u h => ?_, q, l, k, ok⟩
  · rw [hp] at h
    have hu := i.at_ u d h
    have e : u ≠ t := by
      rintro rfl
      apply ht
      rw [hu]
      cases ph <;> cases h <;> trivial
    rw [Function.update_of_ne e]; exact hu
  · by_cases e : u = t
    · subst e; rw [Function.update_self] at h; exact (hc h).elim
    · rw [Function.update_of_ne e] at h ⊢
      rw [hp]; exact i.only u h

/-- A goroutine moves to, within or from the places of those that have the inner mutex. -/
theorem LInv.turn {ph ph' : Phase ι} {lk lk' : RWMutex} {w w' : Bool} {A A' Q S W : Nat} {pc : ι → LockPc}
    (i : LInv ph lk w A Q S W pc) {t : ι} {c : LockPc} (ht : ph.pc = none ∨ (pc t).Writing)
    (hc : ph'.pc = some (t, c) ∨ (ph'.pc = none ∧ ¬ c.Writing))
    (h1 : pc t ≠ .sleepR ∧ pc t ≠ .leaving ∧ pc t ≠ .waking) (h2 : c ≠ .sleepR ∧ c ≠ .leaving ∧ c ≠ .waking)
    (ok : ph'.Ok lk' w' A' Q S W) :
    LInv ph' lk' w' A' Q S W (Function.update pc t c) := by
  have hno : ∀ u, u ≠ t → ¬ (pc u).Writing := fun u e h => by
    have hu := i.only u h
    rcases ht with ht | ht
    · rw [ht] at hu; cases hu
    · have := i.only t ht
      rw [hu] at this
      cases this
      exact e rfl
  refine ⟨fun u d h => ?_, fun u h => ?_, i.queue.move_same h1.1 h2.1, i.leaving.move_same h1.2.1 h2.2.1,
    i.waking.move_same h1.2.2 h2.2.2, ok⟩
  · rcases hc with hc | ⟨hc, -⟩
    · rw [hc] at h
      cases h
      rw [Function.update_self]
    · rw [hc] at h; cases h
  · by_cases e : u = t
    · subst e
      rw [Function.update_self] at h ⊢
      rcases hc with hc | ⟨-, hc⟩
      · exact hc
      · exact (hc h).elim
    · rw [Function.update_of_ne e] at h
      exact (hno u e h).elim

/-! ### The server -/

/-- In these places of `Lock` and `RLock` the goroutine does not have the lock yet. -/
def Waits (code : SM JobOut) : LockPc → Prop
  | .hasW => ∃ k, code = .lock k
  | .announced _ => ∃ k, code = .lock k
  | .sleepW => ∃ k, code = .lock k
  | .sleepR => ∃ k, code = .rlock k
  | _ => True

/-- The invariant: the server is as the one whose lock is taken in one step. -/
structure GInv (E : Ext) (s : Server) (jobs : ι → JobV) (c : SrvL ι) (b : Srv ι) : Prop where
  fatal : c.fatal = false
  same : SameServer c b
  server : ∃ g, SInv E s jobs g b
  waits : ∀ t, Waits (c.code t) (c.pc t)
  lock : ∃ ph Q S W, LInv ph c.lock b.writer b.readers Q S W c.pc

variable {E : Ext} {s : Server} {jobs : ι → JobV}

theorem waits_update {code : ι → SM JobOut} {pc : ι → LockPc} (h : ∀ t, Waits (code t) (pc t)) (t : ι) (m : SM JobOut)
    (c : LockPc) (hm : Waits m c) : ∀ u, Waits (Function.update code t m u) (Function.update pc t c u) := fun u => by
  by_cases e : u = t
  · subst e; rw [Function.update_self, Function.update_self]; exact hm
  · rw [Function.update_of_ne e, Function.update_of_ne e]; exact h u

/-- A goroutine whose code takes no lock. -/
theorem GInv.plain {c : SrvL ι} {b b' : Srv ι} (i : GInv E s jobs c b) (t : ι) (hp : c.pc t = .idle) (hb : Srv.Step b b')
    (m : SM JobOut) (hc : b'.code = Function.update b.code t m) (hw : b'.writer = b.writer) (hr : b'.readers = b.readers) :
    GInv E s jobs ⟨b'.heap, b'.store, c.lock, Function.update c.code t m, c.pc, c.fatal⟩ b' := by
  obtain ⟨g, hi⟩ := i.server
  obtain ⟨g', hi', -⟩ := hi.step hb
  refine ⟨i.fatal, ⟨rfl, rfl, ?_⟩, ⟨g', hi'⟩, ?_, by rw [hw, hr]; exact i.lock⟩
  · rw [hc, i.same.code]
  · have := waits_update i.waits t m .idle trivial
    rw [← hp, Function.update_eq_self] at this
    exact this

/-- A goroutine that moves within a method. -/
theorem GInv.inside {c : SrvL ι} {b : Srv ι} (i : GInv E s jobs c b) (t : ι) (p : LockPc) (hp : Waits (c.code t) p)
    (lk : RWMutex) (h : ∃ ph Q S W, LInv ph lk b.writer b.readers Q S W (Function.update c.pc t p)) :
    GInv E s jobs { c with lock := lk, pc := Function.update c.pc t p } b := by
  refine ⟨i.fatal, ⟨i.same.heap, i.same.store, i.same.code⟩, i.server, ?_, h⟩
  have := waits_update i.waits t (c.code t) p hp
  rw [Function.update_eq_self] at this
  exact this

/-- A goroutine that gets the lock or gives it back. -/
theorem GInv.passes {c : SrvL ι} {b b' : Srv ι} (i : GInv E s jobs c b) (t : ι) (p : LockPc) (m : SM JobOut) (hp : Waits m p)
    (lk : RWMutex) (hb : Srv.Step b b') (h1 : b'.heap = b.heap) (h2 : b'.store = b.store)
    (h3 : b'.code = Function.update b.code t m)
    (h : ∃ ph Q S W, LInv ph lk b'.writer b'.readers Q S W (Function.update c.pc t p)) :
    GInv E s jobs { c with lock := lk, pc := Function.update c.pc t p, code := Function.update c.code t m } b' := by
  obtain ⟨g, hi⟩ := i.server
  obtain ⟨g', hi', -⟩ := hi.step hb
  refine ⟨i.fatal, ⟨?_, ?_, ?_⟩, ⟨g', hi'⟩, waits_update i.waits t m p hp, h⟩
  · rw [h1]; exact i.same.heap
  · rw [h2]; exact i.same.store
  · rw [h3, ← i.same.code]

theorem maxReaders_pos : (0 : Int) < maxReaders := by decide

/-- What is known of a goroutine that reads. -/
theorem GInv.reading {c : SrvL ι} {b : Srv ι} (i : GInv E s jobs c b) {t : ι} {k : SM JobOut} (hc : c.code t = .runlock k) :
    b.readers ≠ 0 ∧ b.writer = false := by
  obtain ⟨g, hi⟩ := i.server
  have hs := hi.safe t
  rw [← i.same.code, hc] at hs
  obtain ⟨hm, -⟩ := hs
  obtain ⟨L, h1, h2, h3⟩ := hi.lock.readers
  refine ⟨?_, ?_⟩
  · intro e
    rw [e] at h2
    have := (h3 t).mpr hm
    rw [List.length_eq_zero_iff.mp h2] at this
    cases this
  · by_contra hw
    obtain ⟨u, hu⟩ := hi.lock.writer.mp (by simpa using hw)
    exact hi.lock.excl u t hu hm

/-- What is known of a goroutine that has written. -/
theorem GInv.writing {c : SrvL ι} {b : Srv ι} (i : GInv E s jobs c b) {t : ι} {k : SM JobOut} (hc : c.code t = .unlock k) :
    b.writer = true := by
  obtain ⟨g, hi⟩ := i.server
  have hs := hi.safe t
  rw [← i.same.code, hc] at hs
  exact hi.lock.writer.mpr ⟨t, by rw [hs.1]; rfl⟩

/-- There is room for one more reader. -/
theorem GInv.room (hf : Few ι) {c : SrvL ι} {b : Srv ι} (i : GInv E s jobs c b) {t : ι} {k : SM JobOut} (hc : c.code t = .rlock k)
    (hp : c.pc t = .idle) {Q : Nat} (hq : Cnt (fun u => c.pc u = .sleepR) Q) : (b.readers : Int) + Q + 1 < maxReaders := by
  obtain ⟨g, hi⟩ := i.server
  have mode : ∀ u k, c.code u = .rlock k → (g.view u).mode = .free := fun u k hu => by
    have hs := hi.safe u
    rw [← i.same.code, hu] at hs
    exact hs.1
  have h1 : Cnt (fun u => (g.view u).mode = .reading) b.readers := hi.lock.readers
  have h2 := h1.both hq fun u hu hq => by
    have hw := i.waits u
    rw [hq] at hw
    obtain ⟨k', hk⟩ := hw
    rw [mode u k' hk] at hu; cases hu
  have h3 := h2.add (t := t) (q := fun u => u = t ∨ _) (by
    rintro (h | h)
    · rw [mode t k hc] at h; cases h
    · rw [hp] at h; cases h) fun u => Iff.rfl
  have := h3.few hf
  push_cast at this
  exact this

theorem GInv.total (hf : Few ι) {c : SrvL ι} {b : Srv ι} (i : GInv E s jobs c b)
    {Q : Nat} (hq : Cnt (fun u => c.pc u = .sleepR) Q) : (b.readers : Int) + Q < maxReaders := by
  obtain ⟨g, hi⟩ := i.server
  have h1 : Cnt (fun u => (g.view u).mode = .reading) b.readers := hi.lock.readers
  have h2 := h1.both hq fun u hu hq => by
    have hw := i.waits u
    rw [hq] at hw
    obtain ⟨k', hk⟩ := hw
    have hs := hi.safe u
    rw [← i.same.code, hk] at hs
    rw [hs.1] at hu; cases hu
  have := h2.few hf
  push_cast at this
  exact this

/-- Closes what is left of a phase: the truth values are as they were, the rest is arithmetic. -/
local macro "closing" : tactic => `(tactic| first
  | omega
  | (refine ⟨by first | rfl | exact ($(Lean.mkIdent `ok)).1, by first | rfl | exact ($(Lean.mkIdent `ok)).2.1, ?_⟩; omega))

/-- Every step is one of the server whose lock is taken in one step, or does not change it. -/
theorem GInv.step (hf : Few ι) {c c' : SrvL ι} {b : Srv ι} (i : GInv E s jobs c b) (h : SrvL.Step c c') :
    ∃ b', GInv E s jobs c' b' ∧ (Srv.Step b b' ∨ b' = b) := by
  obtain ⟨ph, Q, S, W, li⟩ := i.lock
  have ok := li.ok
  have hmax := maxReaders_pos
  obtain ⟨heap, store, lk, code, pc, fatal⟩ := c
  obtain ⟨heap', store', writer, readers, code'⟩ := b
  obtain ⟨e1, e2, e3⟩ := i.same
  dsimp only at e1 e2 e3 ok li
  subst e1 e2 e3
  have writes : ∀ {t : ι} {p : LockPc}, pc t = p → p.Writing → ph.pc = some (t, p) := fun {t p} hp hw => by
    have := li.only t (by rw [hp]; exact hw)
    rw [hp] at this; exact this
  have idle : ∀ {t : ι}, pc t = .idle → pc t ≠ .sleepR ∧ pc t ≠ .leaving ∧ pc t ≠ .waking := fun h => by
    rw [h]; exact ⟨nofun, nofun, nofun⟩
  cases h.2 with
  | alloc t x k hp hc => exact ⟨_, i.plain t hp (.alloc _ t x k hc) _ rfl rfl rfl, Or.inl (.alloc _ t x k hc)⟩
  | grow t n k x hp hc hn => exact ⟨_, i.plain t hp (.grow _ t n k x hc hn) _ rfl rfl rfl, Or.inl (.grow _ t n k x hc hn)⟩
  | read t a j k hp hc => exact ⟨_, i.plain t hp (.read _ t a j k hc) _ rfl rfl rfl, Or.inl (.read _ t a j k hc)⟩
  | write t a j v k hp hc => exact ⟨_, i.plain t hp (.write _ t a j v k hc) _ rfl rfl rfl, Or.inl (.write _ t a j v k hc)⟩
  | mapGet t id k hp hc => exact ⟨_, i.plain t hp (.mapGet _ t id k hc) _ rfl rfl rfl, Or.inl (.mapGet _ t id k hc)⟩
  | mapSet t id sl k hp hc => exact ⟨_, i.plain t hp (.mapSet _ t id sl k hc) _ rfl rfl rfl, Or.inl (.mapSet _ t id sl k hc)⟩
  | lockW t k hp hc hw =>
    dsimp only at hp hc hw
    refine ⟨_, i.inside t .hasW ⟨k, hc⟩ _ ⟨.hasW t, Q, S, W, li.turn (Or.inl ?_) (Or.inl rfl) (idle hp) ⟨nofun, nofun, nofun⟩ ?_⟩,
      Or.inr rfl⟩
    all_goals
      cases ph <;> dsimp only [Phase.Ok] at ok <;> first | rfl | (rw [hw] at ok; exact Bool.noConfusion ok.1) | skip
    exact ⟨rfl, ok.2⟩
  | announce t hp =>
    dsimp only at hp
    have hph := writes hp trivial
    cases ph <;> cases hph
    have hw := i.waits t
    have ht := i.total hf li.queue
    dsimp only at hw ht
    rw [hp] at hw
    dsimp only [Phase.Ok] at ok
    refine ⟨_, i.inside t (.announced _) hw _ ⟨.announced t _, Q, S, W,
      li.turn (Or.inr (by rw [hp]; trivial)) (Or.inl rfl) (by rw [hp]; exact ⟨nofun, nofun, nofun⟩) ⟨nofun, nofun, nofun⟩ ?_⟩,
      Or.inr rfl⟩
    dsimp only [Phase.Ok]
    closing
  | alone t k hp hc =>
    dsimp only at hp hc
    have hph := writes hp trivial
    cases ph <;> cases hph
    dsimp only [Phase.Ok] at ok
    have hwr : writer = false := ok.2.1
    have hA : readers = 0 := by omega
    refine ⟨_, i.passes t .idle k trivial _ (.lock _ t k hc hwr hA) rfl rfl rfl ⟨.crit, Q, S, W,
      li.turn (Or.inr (by rw [hp]; trivial)) (Or.inr ⟨rfl, nofun⟩) (by rw [hp]; exact ⟨nofun, nofun, nofun⟩) ⟨nofun, nofun, nofun⟩ ?_⟩,
      Or.inl (.lock _ t k hc hwr hA)⟩
    dsimp only [Phase.Ok]
    closing
  | awaitNone t r k hp hc hr h0 =>
    dsimp only at hp hc h0
    have hph := writes hp trivial
    cases ph <;> cases hph
    dsimp only [Phase.Ok] at ok
    have hwr : writer = false := ok.2.1
    have hA : readers = 0 := by omega
    refine ⟨_, i.passes t .idle k trivial _ (.lock _ t k hc hwr hA) rfl rfl rfl ⟨.crit, Q, S, W,
      li.turn (Or.inr (by rw [hp]; trivial)) (Or.inr ⟨rfl, nofun⟩) (by rw [hp]; exact ⟨nofun, nofun, nofun⟩) ⟨nofun, nofun, nofun⟩ ?_⟩,
      Or.inl (.lock _ t k hc hwr hA)⟩
    dsimp only [Phase.Ok]
    closing
  | await t r hp hr h0 =>
    dsimp only at hp h0
    have hph := writes hp trivial
    cases ph <;> cases hph
    have hw := i.waits t
    dsimp only at hw
    rw [hp] at hw
    dsimp only [Phase.Ok] at ok
    refine ⟨_, i.inside t .sleepW hw _ ⟨.asleep t, Q, S, W,
      li.turn (Or.inr (by rw [hp]; trivial)) (Or.inl rfl) (by rw [hp]; exact ⟨nofun, nofun, nofun⟩) ⟨nofun, nofun, nofun⟩ ?_⟩,
      Or.inr rfl⟩
    dsimp only [Phase.Ok]
    rw [if_neg h0]
    closing
  | acquireW t k hp hc hs =>
    dsimp only at hp hc hs
    have hph := writes hp trivial
    cases ph <;> cases hph
    dsimp only [Phase.Ok] at ok
    have hwr : writer = false := ok.2.1
    have h0 : lk.readerWait = 0 := by
      by_contra h0
      rw [if_neg h0] at ok
      omega
    rw [if_pos h0] at ok
    have hA : readers = 0 := by omega
    refine ⟨_, i.passes t .idle k trivial _ (.lock _ t k hc hwr hA) rfl rfl rfl ⟨.crit, Q, S, W,
      li.turn (Or.inr (by rw [hp]; trivial)) (Or.inr ⟨rfl, nofun⟩) (by rw [hp]; exact ⟨nofun, nofun, nofun⟩) ⟨nofun, nofun, nofun⟩ ?_⟩,
      Or.inl (.lock _ t k hc hwr hA)⟩
    dsimp only [Phase.Ok]
    closing
  | unlock t k hp hc hlt =>
    dsimp only at hp hc hlt
    have hwr : writer = true := i.writing hc
    cases ph <;> dsimp only [Phase.Ok] at ok <;> try (rw [hwr] at ok; exact Bool.noConfusion ok.2.1)
    refine ⟨_, i.passes t (.releasing _) k trivial _ (.unlock _ t k hc) rfl rfl rfl ⟨.releasing t _, Q, S, W,
      li.turn (Or.inl rfl) (Or.inl rfl) (idle hp) ⟨nofun, nofun, nofun⟩ ?_⟩, Or.inl (.unlock _ t k hc)⟩
    dsimp only [Phase.Ok]
    closing
  | unlockFatal t k hp hc hge =>
    dsimp only at hp hc hge
    have hwr : writer = true := i.writing hc
    have := i.total hf li.queue
    cases ph <;> dsimp only [Phase.Ok] at ok <;> try (rw [hwr] at ok; exact Bool.noConfusion ok.2.1)
    dsimp only at this
    omega
  | release t n hp =>
    dsimp only at hp
    have hph := writes hp trivial
    cases ph <;> cases hph
    dsimp only [Phase.Ok] at ok
    refine ⟨_, i.inside t (.releasing n) trivial _ ⟨.releasing t n, Q, S, W,
      li.turn (Or.inr (by rw [hp]; trivial)) (Or.inl rfl) (by rw [hp]; exact ⟨nofun, nofun, nofun⟩) ⟨nofun, nofun, nofun⟩ ?_⟩,
      Or.inr rfl⟩
    dsimp only [Phase.Ok]
    closing
  | unlockW t hp =>
    dsimp only at hp
    have hph := writes hp trivial
    cases ph <;> cases hph
    dsimp only [Phase.Ok] at ok
    refine ⟨_, i.inside t .idle trivial _ ⟨.free, Q, S, W,
      li.turn (Or.inr (by rw [hp]; trivial)) (Or.inr ⟨rfl, nofun⟩) (by rw [hp]; exact ⟨nofun, nofun, nofun⟩) ⟨nofun, nofun, nofun⟩ ?_⟩,
      Or.inr rfl⟩
    dsimp only [Phase.Ok]
    closing
  | rlock t k hp hc hge =>
    dsimp only at hp hc hge
    have room := i.room hf hc hp li.queue
    dsimp only at room
    have hwr : writer = false := by
      cases ph <;> dsimp only [Phase.Ok] at ok <;> first | exact ok.2.1 | skip
      omega
    have hli : ∃ ph Q S W, LInv ph { lk with readerCount := lk.readerCount + 1 } writer (readers + 1) Q S W pc := by
      refine ⟨ph, Q, S, W, li.at_, li.only, li.queue, li.leaving, li.waking, ?_⟩
      cases ph <;> dsimp only [Phase.Ok] at ok ⊢ <;> closing
    have := i.passes t .idle k trivial { lk with readerCount := lk.readerCount + 1 } (.rlock _ t k hc hwr) rfl rfl rfl (by
      rw [← hp, Function.update_eq_self]; exact hli)
    dsimp only at this
    rw [← hp, Function.update_eq_self] at this
    exact ⟨_, this, Or.inl (.rlock _ t k hc hwr)⟩
  | rlockWait t k hp hc hlt =>
    dsimp only at hp hc hlt
    refine ⟨_, i.inside t .sleepR ⟨k, hc⟩ _ ⟨ph, Q + 1, S, W, li.move rfl (by rw [hp]; exact nofun) nofun
      (li.queue.move_add (idle hp).1) (li.leaving.move_same (idle hp).2.1 nofun) (li.waking.move_same (idle hp).2.2 nofun) ?_⟩,
      Or.inr rfl⟩
    cases ph <;> dsimp only [Phase.Ok] at ok ⊢ <;> push_cast <;> closing
  | acquireR t k hp hc hs =>
    dsimp only at hp hc hs
    have hwr : writer = false := by
      cases ph <;> dsimp only [Phase.Ok] at ok <;> first | exact ok.2.1 | skip
      omega
    obtain ⟨hQ, hq⟩ := li.queue.move_del hp (c := .idle) nofun
    refine ⟨_, i.passes t .idle k trivial _ (.rlock _ t k hc hwr) rfl rfl rfl ⟨ph, Q - 1, S, W,
      li.move rfl (by rw [hp]; exact nofun) nofun hq
        (li.leaving.move_same (by rw [hp]; nofun) nofun) (li.waking.move_same (by rw [hp]; nofun) nofun) ?_⟩,
      Or.inl (.rlock _ t k hc hwr)⟩
    cases ph <;> dsimp only [Phase.Ok] at ok ⊢ <;> push_cast <;> closing
  | runlock t k hp hc hge =>
    dsimp only at hp hc hge
    obtain ⟨hA, hwr⟩ := i.reading hc
    have := i.total hf li.queue
    dsimp only at hA hwr this
    have hli : ∃ ph Q S W, LInv ph { lk with readerCount := lk.readerCount - 1 } writer (readers - 1) Q S W pc := by
      refine ⟨ph, Q, S, W, li.at_, li.only, li.queue, li.leaving, li.waking, ?_⟩
      cases ph <;> dsimp only [Phase.Ok] at ok ⊢ <;> closing
    have := i.passes t .idle k trivial { lk with readerCount := lk.readerCount - 1 } (.runlock _ t k hc) rfl rfl rfl (by
      rw [← hp, Function.update_eq_self]; exact hli)
    dsimp only at this
    rw [← hp, Function.update_eq_self] at this
    exact ⟨_, this, Or.inl (.runlock _ t k hc)⟩
  | runlockSlow t k hp hc hlt h1 h2 =>
    dsimp only at hp hc hlt
    obtain ⟨hA, hwr⟩ := i.reading hc
    have := i.total hf li.queue
    dsimp only at hA hwr this
    refine ⟨_, i.passes t .leaving k trivial _ (.runlock _ t k hc) rfl rfl rfl ⟨ph, Q, S + 1, W,
      li.move rfl (by rw [hp]; exact nofun) nofun (li.queue.move_same (idle hp).1 nofun)
        (li.leaving.move_add (idle hp).2.1) (li.waking.move_same (idle hp).2.2 nofun) ?_⟩,
      Or.inl (.runlock _ t k hc)⟩
    cases ph <;> dsimp only [Phase.Ok] at ok ⊢ <;> push_cast <;> closing
  | runlockFatal t k hp hc hlt hor =>
    dsimp only at hp hc hlt hor
    obtain ⟨hA, hwr⟩ := i.reading hc
    have := i.total hf li.queue
    dsimp only at hA hwr this
    cases ph <;> dsimp only [Phase.Ok] at ok <;> omega
  | leave t hp h0 =>
    dsimp only at hp h0
    obtain ⟨hS, hl⟩ := li.leaving.move_del hp (c := .idle) nofun
    refine ⟨_, i.inside t .idle trivial _ ⟨ph, Q, S - 1, W, li.move rfl (by rw [hp]; exact nofun) nofun
      (li.queue.move_same (by rw [hp]; nofun) nofun) hl (li.waking.move_same (by rw [hp]; nofun) nofun) ?_⟩,
      Or.inr rfl⟩
    cases ph <;> dsimp only [Phase.Ok] at ok ⊢
    case asleep =>
      rw [if_neg h0]
      have : lk.readerWait ≠ 0 := by omega
      rw [if_neg this] at ok
      closing
    all_goals closing
  | leaveLast t hp h0 =>
    dsimp only at hp h0
    obtain ⟨hS, hl⟩ := li.leaving.move_del hp (c := .waking) nofun
    refine ⟨_, i.inside t .waking trivial _ ⟨ph, Q, S - 1, W + 1, li.move rfl (by rw [hp]; exact nofun) nofun
      (li.queue.move_same (by rw [hp]; nofun) nofun) hl (li.waking.move_add (by rw [hp]; nofun)) ?_⟩,
      Or.inr rfl⟩
    cases ph <;> dsimp only [Phase.Ok] at ok ⊢
    case asleep =>
      rw [if_pos h0]
      have : lk.readerWait ≠ 0 := by omega
      rw [if_neg this] at ok
      closing
    all_goals closing
  | wake t hp =>
    dsimp only at hp
    obtain ⟨hW, hk⟩ := li.waking.move_del hp (c := .idle) nofun
    refine ⟨_, i.inside t .idle trivial _ ⟨ph, Q, S, W - 1, li.move rfl (by rw [hp]; exact nofun) nofun
      (li.queue.move_same (by rw [hp]; nofun) nofun) (li.leaving.move_same (by rw [hp]; nofun) nofun) hk ?_⟩,
      Or.inr rfl⟩
    cases ph <;> dsimp only [Phase.Ok] at ok ⊢ <;> closing

end
end Migp
