import Verif.Model.KVConc
import Verif.Props.KV
import Mathlib.Data.List.Nodup
import Mathlib.Tactic.Tauto
/-! # Invariants of the concurrent store -/
namespace Migp.Conc
open Migp Spec Props

/-- The operation on behalf of which a lock is held. -/
def held : PC → Option KVOp
  | .locked op => some op
  | .loaded op _ => some op
  | .writing op _ _ _ => some op
  | .finished op _ => some op
  | _ => none

/-- Holds the lock of this kind. -/
def Has (k : LockKind) (p : PC) : Prop := ∃ op, held p = some op ∧ lockOf op = k

theorem not_has_both {p : PC} (h : Has .write p) (h' : Has .read p) : False := by
  obtain ⟨op, e, w⟩ := h
  obtain ⟨op', e', w'⟩ := h'
  rw [e] at e'; injection e' with e'; subst e'
  rw [w] at w'; cases w'

structure LockInv (s : Conc) : Prop where
  held : ∀ t, Has .write (s.pc t) → s.writer = true
  uniq : ∀ t t', Has .write (s.pc t) → Has .write (s.pc t') → t = t'
  excl : ∀ t, Has .write (s.pc t) → s.readers = 0
  readers : ∃ rs : List Nat, rs.Nodup ∧ rs.length = s.readers ∧ ∀ t, t ∈ rs ↔ Has .read (s.pc t)

theorem at_same (s : Conc) (t : Nat) (p : PC) : s.at t p t = p := by simp [Conc.at]
theorem at_other (s : Conc) (t t' : Nat) (p : PC) (h : t' ≠ t) : s.at t p t' = s.pc t' := by
  simp [Conc.at, h]

theorem not_has_of_none {p : PC} {k : LockKind} (h : Conc.held p = none) : ¬ Has k p := by
  rintro ⟨op, e, -⟩; rw [h] at e; cases e

theorem has_at_iff {s : Conc} {t : Nat} {p : PC} (hp : Conc.held p = Conc.held (s.pc t)) (k : LockKind)
    (t' : Nat) : Has k (s.at t p t') ↔ Has k (s.pc t') := by
  by_cases h : t' = t
  · subst h; rw [at_same]; unfold Has; rw [hp]
  · rw [at_other _ _ _ _ h]

/-- A step that keeps the lock and what the goroutine holds. -/
theorem lockInv_keep {s : Conc} (hi : LockInv s) (t : Nat) (p : PC)
    (hp : Conc.held p = Conc.held (s.pc t)) (store : GoString → Bytes) :
    LockInv ⟨store, s.writer, s.readers, s.at t p⟩ := by
  obtain ⟨h1, h2, h3, rs, n, l, m⟩ := hi
  refine ⟨fun t' h => ?_, fun t' t'' h h' => ?_, fun t' h => ?_, rs, n, l, fun t' => ?_⟩
  · exact h1 t' ((has_at_iff hp _ _).mp h)
  · exact h2 t' t'' ((has_at_iff hp _ _).mp h) ((has_at_iff hp _ _).mp h')
  · exact h3 t' ((has_at_iff hp _ _).mp h)
  · rw [m]; exact (has_at_iff hp _ _).symm

theorem lockInv_step {s s' : Conc} {l : Option Ev} (hi : LockInv s) (h : Conc.Step s l s') :
    LockInv s' := by
  cases h with
  | call t op h => exact lockInv_keep hi t _ (by rw [h]; rfl) _
  | ret t op r h => exact lockInv_keep hi t _ (by rw [h]; rfl) _
  | loadAppend t id v h => exact lockInv_keep hi t _ (by rw [h]; rfl) _
  | loadGet t id h => exact lockInv_keep hi t _ (by rw [h]; rfl) _
  | retGet t id b h => exact lockInv_keep hi t _ (by rw [h]; rfl) _
  | beginPut t id v junk h => exact lockInv_keep hi t _ (by rw [h]; rfl) _
  | beginAppend t id v b junk h => exact lockInv_keep hi t _ (by rw [h]; rfl) _
  | endWrite t op id saved new h => exact lockInv_keep hi t _ (by rw [h]; rfl) _
  | lock t op h hk hw hr =>
    have hno : ∀ t', ¬ Has .write (s.pc t') := fun t' e => by
      have := hi.held t' e; rw [hw] at this; cases this
    have honly : ∀ t', Has .write (s.at t (.locked op) t') → t' = t := by
      intro t' e
      by_contra hne
      rw [at_other _ _ _ _ hne] at e
      exact hno t' e
    obtain ⟨rs, n, le, m⟩ := hi.readers
    refine ⟨fun t' e => rfl, fun t' t'' e e' => (honly t' e).trans (honly t'' e').symm, fun t' e => hr,
      rs, n, le, fun t' => ?_⟩
    rw [m]
    by_cases ht : t' = t
    · subst ht
      dsimp only; rw [at_same, h]
      constructor
      · intro e; exact absurd e (not_has_of_none rfl)
      · rintro ⟨op', e, w⟩
        injection e with e; subst e; rw [hk] at w; cases w
    · dsimp only; rw [at_other _ _ _ _ ht]
  | rlock t op h hk hw =>
    have hno : ∀ t', ¬ Has .write (s.pc t') := fun t' e => by
      have := hi.held t' e; rw [hw] at this; cases this
    have hno' : ∀ t', ¬ Has .write (s.at t (.locked op) t') := by
      intro t' e
      by_cases ht : t' = t
      · subst ht
        rw [at_same] at e
        obtain ⟨op', e, w⟩ := e
        injection e with e; subst e; rw [hk] at w; cases w
      · rw [at_other _ _ _ _ ht] at e; exact hno t' e
    obtain ⟨rs, n, le, m⟩ := hi.readers
    refine ⟨fun t' e => absurd e (hno' t'), fun t' t'' e => absurd e (hno' t'),
      fun t' e => absurd e (hno' t'), t :: rs, ?_, by simp [le], fun t' => ?_⟩
    · rw [List.nodup_cons]
      refine ⟨fun hm => ?_, n⟩
      rw [m, h] at hm
      exact not_has_of_none rfl hm
    · rw [List.mem_cons, m]
      by_cases ht : t' = t
      · subst ht
        dsimp only; rw [at_same]
        exact ⟨fun _ => ⟨op, rfl, hk⟩, fun _ => .inl rfl⟩
      · dsimp only; rw [at_other _ _ _ _ ht]
        constructor
        · rintro (e | e)
          · exact absurd e ht
          · exact e
        · exact .inr
  | unlock t op r h hk =>
    have hht : Has .write (s.pc t) := by rw [h]; exact ⟨op, rfl, hk⟩
    have hno' : ∀ t', ¬ Has .write (s.at t (.unlocked op r) t') := by
      intro t' e
      by_cases ht : t' = t
      · subst ht; rw [at_same] at e; exact not_has_of_none rfl e
      · rw [at_other _ _ _ _ ht] at e; exact ht (hi.uniq t' t e hht)
    obtain ⟨rs, n, le, m⟩ := hi.readers
    refine ⟨fun t' e => absurd e (hno' t'), fun t' t'' e => absurd e (hno' t'),
      fun t' e => absurd e (hno' t'), rs, n, le, fun t' => ?_⟩
    rw [m]
    by_cases ht : t' = t
    · subst ht
      dsimp only; rw [at_same]
      constructor
      · intro e; exact absurd (not_has_both hht e) id
      · intro e; exact absurd e (not_has_of_none rfl)
    · dsimp only; rw [at_other _ _ _ _ ht]
  | runlock t op r h hk =>
    have hht : Has .read (s.pc t) := by rw [h]; exact ⟨op, rfl, hk⟩
    obtain ⟨rs, n, le, m⟩ := hi.readers
    have hmt : t ∈ rs := (m t).mpr hht
    have hpos : 0 < s.readers := by rw [← le]; exact List.length_pos_of_mem hmt
    have hno : ∀ t', ¬ Has .write (s.pc t') := fun t' e => by
      have := hi.excl t' e; omega
    have hno' : ∀ t', ¬ Has .write (s.at t (.unlocked op r) t') := by
      intro t' e
      by_cases ht : t' = t
      · subst ht; rw [at_same] at e; exact not_has_of_none rfl e
      · rw [at_other _ _ _ _ ht] at e; exact hno t' e
    refine ⟨fun t' e => absurd e (hno' t'), fun t' t'' e => absurd e (hno' t'),
      fun t' e => absurd e (hno' t'), rs.erase t, n.erase t, ?_, fun t' => ?_⟩
    · rw [List.length_erase_of_mem hmt, le]
    · rw [n.mem_erase_iff, m]
      by_cases ht : t' = t
      · subst ht
        dsimp only; rw [at_same]
        constructor
        · intro e; exact absurd rfl e.1
        · intro e; exact absurd e (not_has_of_none rfl)
      · dsimp only; rw [at_other _ _ _ _ ht]
        exact ⟨fun e => e.2, fun e => ⟨ht, e⟩⟩

theorem lockInv_start : LockInv Conc.start :=
  ⟨fun _ h => absurd h (not_has_of_none rfl), fun _ _ h => absurd h (not_has_of_none rfl),
    fun _ h => absurd h (not_has_of_none rfl), [], List.nodup_nil, rfl,
    fun _ => ⟨fun h => absurd h (List.not_mem_nil), fun h => absurd h (not_has_of_none rfl)⟩⟩

/-- The write lock is held by somebody, and only `Append` and `Get` load. -/
structure LiveInv (s : Conc) : Prop where
  writer : s.writer = true → ∃ t, Has .write (s.pc t)
  load : ∀ t op v, s.pc t = .loaded op v → ∀ id w, op ≠ .put id w

theorem liveInv_keep {s : Conc} (hi : LiveInv s) (t : Nat) (p : PC)
    (hp : Conc.held p = Conc.held (s.pc t)) (hl : ∀ op v, p = .loaded op v → ∀ id w, op ≠ .put id w)
    (store : GoString → Bytes) : LiveInv ⟨store, s.writer, s.readers, s.at t p⟩ := by
  refine ⟨fun h => ?_, fun t' op v e => ?_⟩
  · obtain ⟨t', ht'⟩ := hi.writer h
    exact ⟨t', (has_at_iff hp _ _).mpr ht'⟩
  · dsimp only at e
    by_cases ht : t' = t
    · subst ht; rw [at_same] at e; exact hl op v e
    · rw [at_other _ _ _ _ ht] at e; exact hi.load t' op v e

theorem load_at {s : Conc} (hi : LiveInv s) (t : Nat) (p : PC) (hl : ∀ op v, p ≠ .loaded op v) :
    ∀ t' op v, s.at t p t' = .loaded op v → ∀ id w, op ≠ .put id w := by
  intro t' op v e
  by_cases ht : t' = t
  · subst ht; rw [at_same] at e; exact absurd e (hl op v)
  · rw [at_other _ _ _ _ ht] at e; exact hi.load t' op v e

theorem liveInv_step {s s' : Conc} {l : Option Ev} (hk : LockInv s) (hi : LiveInv s)
    (h : Conc.Step s l s') : LiveInv s' := by
  cases h with
  | call t op h => exact liveInv_keep hi t _ (by rw [h]; rfl) (by intros; simp_all) _
  | ret t op r h => exact liveInv_keep hi t _ (by rw [h]; rfl) (by intros; simp_all) _
  | loadAppend t id v h =>
    refine liveInv_keep hi t _ (by rw [h]; rfl) ?_ _
    rintro op v e id w rfl; injection e with e; cases e
  | loadGet t id h =>
    refine liveInv_keep hi t _ (by rw [h]; rfl) ?_ _
    rintro op v e id w rfl; injection e with e; cases e
  | retGet t id b h => exact liveInv_keep hi t _ (by rw [h]; rfl) (by intros; simp_all) _
  | beginPut t id v junk h => exact liveInv_keep hi t _ (by rw [h]; rfl) (by intros; simp_all) _
  | beginAppend t id v b junk h => exact liveInv_keep hi t _ (by rw [h]; rfl) (by intros; simp_all) _
  | endWrite t op id saved new h => exact liveInv_keep hi t _ (by rw [h]; rfl) (by intros; simp_all) _
  | lock t op h hw _ _ =>
    exact ⟨fun _ => ⟨t, by dsimp only; rw [at_same]; exact ⟨op, rfl, hw⟩⟩,
      load_at hi t _ (by intros; simp)⟩
  | rlock t op h hr hw =>
    exact ⟨fun e => (by rw [hw] at e; cases e), load_at hi t _ (by intros; simp)⟩
  | unlock t op r h hw => exact ⟨fun e => (by cases e), load_at hi t _ (by intros; simp)⟩
  | runlock t op r h hr =>
    refine ⟨fun e => ?_, load_at hi t _ (by intros; simp)⟩
    obtain ⟨t', ht'⟩ := hi.writer e
    obtain ⟨rs, n, le, m⟩ := hk.readers
    have : t ∈ rs := (m t).mpr (by rw [h]; exact ⟨op, rfl, hr⟩)
    have := List.length_pos_of_mem this
    have := hk.excl t' ht'
    omega

theorem lockInv {h : List Ev} {s : Conc} (he : Conc.Exec h s) : LockInv s := by
  induction he with
  | start => exact lockInv_start
  | step _ hs ih => exact lockInv_step ih hs

theorem liveInv {h : List Ev} {s : Conc} (he : Conc.Exec h s) : LiveInv s := by
  induction he with
  | start => exact ⟨fun e => (by cases e), fun t op v e => (by cases e)⟩
  | step he' hs ih => exact liveInv_step (lockInv he') ih hs

/-! ## Goroutine histories -/

inductive Status where
  | idle
  | pending (op : KVOp)
  | done (op : KVOp) (r : Bytes)

def status : PC → Status
  | .idle => .idle
  | .called op => .pending op
  | .locked op => .pending op
  | .loaded (.get k) b => .done (.get k) b
  | .loaded op _ => .pending op
  | .writing op _ _ _ => .pending op
  | .finished op r => .done op r
  | .unlocked op r => .done op r

inductive ThreadSt : List LEv → Status → Prop
  | none : ThreadSt [] .idle
  | inv {l : List LEv} (t : Nat) (op : KVOp) : ThreadSt l .idle → ThreadSt (l ++ [.inv t op]) (.pending op)
  | lin {l : List LEv} (t : Nat) (op : KVOp) (r : Bytes) : ThreadSt l (.pending op) →
      ThreadSt (l ++ [.lin t op r]) (.done op r)
  | ret {l : List LEv} (t : Nat) (op : KVOp) (r : Bytes) : ThreadSt l (.done op r) →
      ThreadSt (l ++ [.ret t r]) .idle

/-- Lists of events of one goroutine, of complete calls. -/
inductive Done : List LEv → Prop
  | nil : Done []
  | cons (t : Nat) (op : KVOp) (r : Bytes) {rest : List LEv} : Done rest →
      Done (.inv t op :: .lin t op r :: .ret t r :: rest)

theorem Done.append {a b : List LEv} (ha : Done a) (hb : Done b) : Done (a ++ b) := by
  induction ha with
  | nil => exact hb
  | cons t op r _ ih => exact .cons t op r ih

theorem Done.ok {a b : List LEv} (ha : Done a) (hb : ThreadOK b) : ThreadOK (a ++ b) := by
  induction ha with
  | nil => exact hb
  | cons t op r _ ih => exact .returned t op r _ ih

theorem threadSt_split {l : List LEv} {st : Status} (h : ThreadSt l st)
    (t : Nat) (ht : ∀ e ∈ l, e.thread = t) :
    ∃ a, Done a ∧ (match st with
      | .idle => l = a
      | .pending op => l = a ++ [.inv t op]
      | .done op r => l = a ++ [.inv t op, .lin t op r]) := by
  induction h with
  | none => exact ⟨[], .nil, rfl⟩
  | inv t' op _ ih =>
    obtain ⟨a, ha, e⟩ := ih (fun e he => ht e (by simp [he]))
    have : t' = t := ht (.inv t' op) (by simp)
    subst this
    dsimp only at e ⊢
    exact ⟨a, ha, by rw [e]⟩
  | lin t' op r _ ih =>
    obtain ⟨a, ha, e⟩ := ih (fun e he => ht e (by simp [he]))
    have : t' = t := ht (.lin t' op r) (by simp)
    subst this
    dsimp only at e ⊢
    exact ⟨a, ha, by rw [e]; simp⟩
  | ret t' op r _ ih =>
    obtain ⟨a, ha, e⟩ := ih (fun e he => ht e (by simp [he]))
    have : t' = t := ht (.ret t' r) (by simp)
    subst this
    dsimp only at e ⊢
    exact ⟨_, ha.append (.cons t' op r .nil), by rw [e]; simp⟩

theorem threadSt_ok {l : List LEv} {st : Status} (h : ThreadSt l st)
    (t : Nat) (ht : ∀ e ∈ l, e.thread = t) : ThreadOK l := by
  obtain ⟨a, ha, e⟩ := threadSt_split h t ht
  cases st with
  | idle => dsimp only at e; rw [e, ← List.append_nil a]; exact ha.ok .none
  | pending op => dsimp only at e; rw [e]; exact ha.ok (.called t op)
  | done op r => dsimp only at e; rw [e]; exact ha.ok (.effective t op r)

/-! ## The simulation -/

/-- The contents after a list of operations. -/
def contents (log : List KVOp) : GoString → Bytes := (newKVStore.run log).1.store

theorem holds_contents (log : List KVOp) (k : GoString) : Holds k log (contents log k) := by
  obtain ⟨b, hb⟩ := C46_total log k
  have := C46_map log k b hb
  unfold KV.get at this
  injection this with this
  unfold contents
  rw [this]
  exact hb

theorem contents_put (log : List KVOp) (k : GoString) (v : Bytes) :
    contents (log ++ [.put k v]) = fun k' => if k' = k then v else contents log k' := by
  unfold contents
  rw [run_append]
  rfl

theorem contents_append (log : List KVOp) (k : GoString) (v : Bytes) :
    contents (log ++ [.append k v]) =
      fun k' => if k' = k then contents log k ++ v else contents log k' := by
  unfold contents
  rw [run_append]
  rfl

theorem contents_get (log : List KVOp) (k : GoString) : contents (log ++ [.get k]) = contents log := by
  unfold contents
  rw [run_append]
  rfl

theorem legal_snoc {ls : List (KVOp × Bytes)} (h : Legal ls) (op : KVOp) (r : Bytes)
    (hr : match op with
      | .get key => Holds key (ls.map Prod.fst) r
      | _ => r = []) : Legal (ls ++ [(op, r)]) := by
  intro a op' r' b e
  rcases List.eq_nil_or_concat b with rfl | ⟨b', x, rfl⟩
  · have := List.append_inj' e rfl
    obtain ⟨rfl, e2⟩ := this
    injection e2 with e2
    injection e2 with e2 e3
    subst e2 e3
    exact hr
  · have e' : ls ++ [(op, r)] = (a ++ (op', r') :: b') ++ [x] := by rw [e]; simp
    have := List.append_inj' e' rfl
    exact h a op' r' b' this.1

/-- The relation kept by every step. -/
structure Sim (h : List Ev) (s : Conc) (l : List LEv) : Prop where
  erase : l.filterMap LEv.erase = h
  threads : ∀ t, ThreadSt (l.filter (fun e => e.thread = t)) (status (s.pc t))
  legal : Legal (l.filterMap LEv.effect)
  quiet : (∀ t op id saved new, s.pc t ≠ .writing op id saved new) →
    s.store = contents ((l.filterMap LEv.effect).map Prod.fst)
  writing : ∀ t op id saved new, s.pc t = .writing op id saved new →
    saved = contents ((l.filterMap LEv.effect).map Prod.fst) ∧
    (op = .put id new ∨ ∃ v, op = .append id v ∧ new = saved id ++ v)
  loaded : ∀ t id v b, s.pc t = .loaded (.append id v) b →
    b = contents ((l.filterMap LEv.effect).map Prod.fst) id

theorem filter_snoc (l : List LEv) (e : LEv) (t : Nat) :
    (l ++ [e]).filter (fun e => e.thread = t) =
      l.filter (fun e => e.thread = t) ++ if e.thread = t then [e] else [] := by
  rw [List.filter_append]
  by_cases h : e.thread = t <;> simp [h]

theorem threads_silent {s : Conc} {l : List LEv}
    (hth : ∀ t, ThreadSt (l.filter (fun e => e.thread = t)) (status (s.pc t)))
    (t : Nat) (p : PC) (hp : status p = status (s.pc t)) (t' : Nat) :
    ThreadSt (l.filter (fun e => e.thread = t')) (status (s.at t p t')) := by
  by_cases h : t' = t
  · subst h; rw [at_same, hp]; exact hth t'
  · rw [at_other _ _ _ _ h]; exact hth t'

theorem threads_ev {s : Conc} {l : List LEv}
    (hth : ∀ t, ThreadSt (l.filter (fun e => e.thread = t)) (status (s.pc t)))
    (t : Nat) (p : PC) (e : LEv) (he : e.thread = t)
    (hstep : ∀ l, ThreadSt l (status (s.pc t)) → ThreadSt (l ++ [e]) (status p)) (t' : Nat) :
    ThreadSt ((l ++ [e]).filter (fun e => e.thread = t')) (status (s.at t p t')) := by
  rw [filter_snoc]
  by_cases h : t' = t
  · subst h; rw [at_same, if_pos he]; exact hstep _ (hth t')
  · rw [at_other _ _ _ _ h, if_neg (by rw [he]; exact fun x => h x.symm), List.append_nil]; exact hth t'

/-- Nobody else writes while this goroutine holds a lock. -/
theorem no_writer {s : Conc} (hi : LockInv s) {h : List Ev} {l : List LEv} (hs : Sim h s l) {t : Nat}
    {op : KVOp} (ht : Conc.held (s.pc t) = some op)
    (hnw : ∀ op id saved new, s.pc t ≠ .writing op id saved new) :
    ∀ t' op id saved new, s.pc t' ≠ .writing op id saved new := by
  intro t' op' id saved new e
  have hw : Has .write (s.pc t') := by
    refine ⟨op', by rw [e]; rfl, ?_⟩
    rcases (hs.writing t' op' id saved new e).2 with rfl | ⟨v, rfl, -⟩ <;> rfl
  cases hk : lockOf op with
  | write =>
    have := hi.uniq t' t hw ⟨op, ht, hk⟩
    subst this
    exact hnw _ _ _ _ e
  | read =>
    obtain ⟨rs, n, le, m⟩ := hi.readers
    have : t ∈ rs := (m t).mpr ⟨op, ht, hk⟩
    have := List.length_pos_of_mem this
    have := hi.excl t' hw
    omega

theorem only_writer {s : Conc} (hi : LockInv s) {t t' : Nat} {op op' : KVOp}
    (ht : Conc.held (s.pc t) = some op) (hk : lockOf op = .write)
    (ht' : Conc.held (s.pc t') = some op') : t' = t := by
  cases hk' : lockOf op' with
  | write => exact hi.uniq t' t ⟨op', ht', hk'⟩ ⟨op, ht, hk⟩
  | read =>
    obtain ⟨rs, n, le, m⟩ := hi.readers
    have : t' ∈ rs := (m t').mpr ⟨op', ht', hk'⟩
    have := List.length_pos_of_mem this
    have := hi.excl t ⟨op, ht, hk⟩
    omega

/-- A step that does not touch the map nor take effect. -/
theorem sim_quiet {h : List Ev} {s : Conc} {l : List LEv} (hs : Sim h s l) (t : Nat) (p : PC)
    (writer : Bool) (readers : Nat) (ev : List LEv) (hev : ev.filterMap LEv.effect = [])
    (hth : ∀ t', ThreadSt ((l ++ ev).filter (fun e => e.thread = t')) (status (s.at t p t')))
    (hp0 : ∀ op id saved new, s.pc t ≠ .writing op id saved new)
    (hp1 : ∀ op id saved new, p ≠ .writing op id saved new)
    (hp2 : ∀ id v b, p = .loaded (.append id v) b →
      b = contents ((l.filterMap LEv.effect).map Prod.fst) id) :
    Sim (h ++ ev.filterMap LEv.erase) ⟨s.store, writer, readers, s.at t p⟩ (l ++ ev) := by
  have he : (l ++ ev).filterMap LEv.effect = l.filterMap LEv.effect := by
    rw [List.filterMap_append, hev, List.append_nil]
  refine ⟨?_, hth, by rw [he]; exact hs.legal, ?_, ?_, ?_⟩
  · rw [List.filterMap_append, hs.erase]
  · intro hq
    rw [he]
    apply hs.quiet
    intro t' op id saved new e
    by_cases ht : t' = t
    · subst ht; exact hp0 _ _ _ _ e
    · exact hq t' op id saved new (by dsimp only; rw [at_other _ _ _ _ ht]; exact e)
  · intro t' op id saved new e
    dsimp only at e
    rw [he]
    by_cases ht : t' = t
    · subst ht; rw [at_same] at e; exact absurd e (hp1 _ _ _ _)
    · rw [at_other _ _ _ _ ht] at e; exact hs.writing t' op id saved new e
  · intro t' id v b e
    dsimp only at e
    rw [he]
    by_cases ht : t' = t
    · subst ht; rw [at_same] at e; exact hp2 _ _ _ e
    · rw [at_other _ _ _ _ ht] at e; exact hs.loaded t' id v b e

theorem sim_step {h : List Ev} {s s' : Conc} {lab : Option Ev} {l : List LEv} (hi : LockInv s)
    (hs : Sim h s l) (hstep : Conc.Step s lab s') : ∃ l', Sim (h ++ lab.toList) s' l' := by
  cases hstep with
  | call t op e =>
    refine ⟨_, sim_quiet hs t _ _ _ [.inv t op] rfl ?_ ?_ ?_ ?_⟩
    · exact threads_ev hs.threads t _ _ rfl (fun l hl => by rw [e] at hl; exact .inv t op hl)
    · rw [e]; intros; simp
    · intros; simp
    · intros; simp_all
  | lock t op e hk hw hr =>
    refine ⟨l ++ [], sim_quiet hs t _ _ _ [] rfl ?_ ?_ ?_ ?_⟩
    · rw [List.append_nil]; exact threads_silent hs.threads t _ (by rw [e]; rfl)
    · rw [e]; intros; simp
    · intros; simp
    · intros; simp_all
  | rlock t op e hk hw =>
    refine ⟨l ++ [], sim_quiet hs t _ _ _ [] rfl ?_ ?_ ?_ ?_⟩
    · rw [List.append_nil]; exact threads_silent hs.threads t _ (by rw [e]; rfl)
    · rw [e]; intros; simp
    · intros; simp
    · intros; simp_all
  | unlock t op r e hk =>
    refine ⟨l ++ [], sim_quiet hs t _ _ _ [] rfl ?_ ?_ ?_ ?_⟩
    · rw [List.append_nil]; exact threads_silent hs.threads t _ (by rw [e]; rfl)
    · rw [e]; intros; simp
    · intros; simp
    · intros; simp_all
  | runlock t op r e hk =>
    refine ⟨l ++ [], sim_quiet hs t _ _ _ [] rfl ?_ ?_ ?_ ?_⟩
    · rw [List.append_nil]; exact threads_silent hs.threads t _ (by rw [e]; rfl)
    · rw [e]; intros; simp
    · intros; simp
    · intros; simp_all
  | ret t op r e =>
    refine ⟨_, sim_quiet hs t _ _ _ [.ret t r] rfl ?_ ?_ ?_ ?_⟩
    · exact threads_ev hs.threads t _ _ rfl (fun l hl => by rw [e] at hl; exact .ret t op r hl)
    · rw [e]; intros; simp
    · intros; simp
    · intros; simp_all
  | retGet t id b e =>
    refine ⟨l ++ [], sim_quiet hs t _ _ _ [] rfl ?_ ?_ ?_ ?_⟩
    · rw [List.append_nil]; exact threads_silent hs.threads t _ (by rw [e]; rfl)
    · rw [e]; intros; simp
    · intros; simp
    · intros; simp_all
  | loadAppend t id v e =>
    have hq := hs.quiet (no_writer hi hs (by rw [e]; rfl) (by rw [e]; intros; simp))
    refine ⟨l ++ [], sim_quiet hs t _ _ _ [] rfl ?_ ?_ ?_ ?_⟩
    · rw [List.append_nil]; exact threads_silent hs.threads t _ (by rw [e]; rfl)
    · rw [e]; intros; simp
    · intros; simp
    · intro id' v' b' e'
      injection e' with e1 e2
      injection e1 with e1 e3
      subst e1
      rw [← e2, hq]
  | loadGet t id e =>
    have hq := hs.quiet (no_writer hi hs (by rw [e]; rfl) (by rw [e]; intros; simp))
    have hc : contents (((l ++ [LEv.lin t (.get id) (s.store id)]).filterMap LEv.effect).map Prod.fst) =
        contents ((l.filterMap LEv.effect).map Prod.fst) := by
      rw [List.filterMap_append, List.map_append]; exact contents_get _ id
    refine ⟨l ++ [.lin t (.get id) (s.store id)], ?_, ?_, ?_, ?_, ?_, ?_⟩
    · rw [List.filterMap_append, hs.erase]; rfl
    · exact threads_ev hs.threads t _ _ rfl (fun l hl => by rw [e] at hl; exact .lin t _ _ hl)
    · rw [List.filterMap_append]
      exact legal_snoc hs.legal _ _ (by dsimp only; rw [hq]; exact holds_contents _ _)
    · intro _; rw [hc]; exact hq
    · intro t' op' id' saved new e'
      dsimp only at e'
      rw [hc]
      by_cases ht : t' = t
      · subst ht; rw [at_same] at e'; cases e'
      · rw [at_other _ _ _ _ ht] at e'; exact hs.writing _ _ _ _ _ e'
    · intro t' id' v' b' e'
      dsimp only at e'
      rw [hc]
      by_cases ht : t' = t
      · subst ht; rw [at_same] at e'; cases e'
      · rw [at_other _ _ _ _ ht] at e'; exact hs.loaded _ _ _ _ e'
  | beginPut t id v junk e =>
    have hq := hs.quiet (no_writer hi hs (by rw [e]; rfl) (by rw [e]; intros; simp))
    refine ⟨l, by simpa using hs.erase, ?_, hs.legal, ?_, ?_, ?_⟩
    · exact threads_silent hs.threads t _ (by rw [e]; rfl)
    · intro hn; exact absurd (at_same s t _) (hn t _ _ _ _)
    · intro t' op' id' saved new e'
      dsimp only at e'
      by_cases ht : t' = t
      · subst ht; rw [at_same] at e'
        injection e' with e1 e2 e3 e4
        subst e1 e2 e3 e4
        exact ⟨hq, .inl rfl⟩
      · rw [at_other _ _ _ _ ht] at e'; exact hs.writing _ _ _ _ _ e'
    · intro t' id' v' b' e'
      dsimp only at e'
      by_cases ht : t' = t
      · subst ht; rw [at_same] at e'; cases e'
      · rw [at_other _ _ _ _ ht] at e'; exact hs.loaded _ _ _ _ e'
  | beginAppend t id v b junk e =>
    have hq := hs.quiet (no_writer hi hs (by rw [e]; rfl) (by rw [e]; intros; simp))
    have hb := hs.loaded t id v b e
    refine ⟨l, by simpa using hs.erase, ?_, hs.legal, ?_, ?_, ?_⟩
    · exact threads_silent hs.threads t _ (by rw [e]; rfl)
    · intro hn; exact absurd (at_same s t _) (hn t _ _ _ _)
    · intro t' op' id' saved new e'
      dsimp only at e'
      by_cases ht : t' = t
      · subst ht; rw [at_same] at e'
        injection e' with e1 e2 e3 e4
        subst e1 e2 e3 e4
        exact ⟨hq, .inr ⟨v, rfl, by rw [hb, hq]⟩⟩
      · rw [at_other _ _ _ _ ht] at e'; exact hs.writing _ _ _ _ _ e'
    · intro t' id' v' b' e'
      dsimp only at e'
      by_cases ht : t' = t
      · subst ht; rw [at_same] at e'; cases e'
      · rw [at_other _ _ _ _ ht] at e'; exact hs.loaded _ _ _ _ e'
  | endWrite t op id saved new e =>
    obtain ⟨hsv, hop⟩ := hs.writing t op id saved new e
    have hk : lockOf op = .write := by rcases hop with rfl | ⟨v, rfl, -⟩ <;> rfl
    have hheld : Conc.held (s.pc t) = some op := by rw [e]; rfl
    have hc : contents (((l ++ [LEv.lin t op []]).filterMap LEv.effect).map Prod.fst) =
        fun k => if k = id then new else saved k := by
      rw [List.filterMap_append, List.map_append]
      rcases hop with rfl | ⟨v, rfl, rfl⟩
      · exact (contents_put _ _ _).trans (by rw [hsv])
      · exact (contents_append _ _ _).trans (by rw [hsv])
    refine ⟨l ++ [.lin t op []], ?_, ?_, ?_, ?_, ?_, ?_⟩
    · rw [List.filterMap_append, hs.erase]; rfl
    · exact threads_ev hs.threads t _ _ rfl (fun l hl => by rw [e] at hl; exact .lin t _ _ hl)
    · rw [List.filterMap_append]
      refine legal_snoc hs.legal _ _ ?_
      rcases hop with rfl | ⟨v, rfl, -⟩ <;> rfl
    · intro _; rw [hc]
    · intro t' op' id' saved' new' e'
      dsimp only at e'
      by_cases ht : t' = t
      · subst ht; rw [at_same] at e'; cases e'
      · rw [at_other _ _ _ _ ht] at e'
        exact absurd (only_writer hi hheld hk (by rw [e']; rfl)) ht
    · intro t' id' v' b' e'
      dsimp only at e'
      by_cases ht : t' = t
      · subst ht; rw [at_same] at e'; cases e'
      · rw [at_other _ _ _ _ ht] at e'
        exact absurd (only_writer hi hheld hk (by rw [e']; rfl)) ht

theorem sim_start : Sim [] Conc.start [] :=
  ⟨rfl, fun _ => .none, (by intro a op r b e; simp at e), fun _ => rfl,
    (by intro t op id saved new e; cases e), (by intro t id v b e; cases e)⟩

theorem sim {h : List Ev} {s : Conc} (he : Conc.Exec h s) : ∃ l, Sim h s l := by
  induction he with
  | start => exact ⟨[], sim_start⟩
  | step he' hs ih =>
    obtain ⟨l, hl⟩ := ih
    exact sim_step (lockInv he') hl hs

theorem sim_threads {h : List Ev} {s : Conc} {l : List LEv} (hs : Sim h s l) (t : Nat) :
    ThreadOK (l.filter (fun e => e.thread = t)) :=
  threadSt_ok (hs.threads t) t (by intro e he; simpa using (List.mem_filter.mp he).2)

end Migp.Conc
