import Verif.Model.KVMem
import Verif.Lemmas.Conc
import Verif.Props.KVHeap
/-! # Invariants of the concurrent store with shared memory -/
namespace Migp.MConc
open Migp Spec Props

/-- The state of a goroutine with slices replaced by the bytes they show. An `append` that has not begun to
write to the map counts as having loaded the old value. -/
def absPC (mem : Mem) : MPC → PC
  | .idle => .idle
  | .called op => .called op
  | .locked op => .locked op
  | .loaded op sl => .loaded op (mem.read sl)
  | .copying id v sl _ => .loaded (.append id v) (mem.read sl)
  | .storing id v old _ => .loaded (.append id v) (mem.read old)
  | .writing op id saved new => .writing op id (fun k => mem.read (saved k)) (mem.read new)
  | .finished op r => .finished op (mem.read r)
  | .unlocked op r => .unlocked op (mem.read r)

/-- The state with slices replaced by the bytes they show. -/
def abs (s : MConc) : Conc :=
  ⟨fun k => s.mem.read (s.store k), s.writer, s.readers, fun t => absPC s.mem (s.pc t)⟩

/-- The slice a reader has in its hands. -/
def _root_.Migp.MPC.slice : MPC → Option Slice
  | .loaded (.get _) sl => some sl
  | .finished _ r => some r
  | .unlocked _ r => some r
  | _ => none

/-- A non-empty slice that `Get` is handing out or has handed out. -/
def Live (s : MConc) (sl : Slice) : Prop :=
  sl.len ≠ 0 ∧ ((∃ t, (s.pc t).slice = some sl) ∨ ∃ t b, (t, sl, b) ∈ s.given)

/-- The map after an assignment. -/
def upd (st : GoString → Slice) (id : GoString) (new : Slice) : GoString → Slice :=
  fun k => if k = id then new else st k

/-- The slice about to be stored owns its array, and does not endanger what has been handed out. -/
def NewOK (s : MConc) (st : GoString → Slice) (id : GoString) (new : Slice) : Prop :=
  HeapInv ⟨s.mem, upd st id new⟩ ∧ ∀ sl, Live s sl → HeapSafe ⟨s.mem, upd st id new⟩ sl

def PCok (s : MConc) (st : GoString → Slice) : MPC → Prop
  | .loaded (.append id _) sl => sl = st id
  | .copying id v sl n => sl = st id ∧ sl.len + v.length ≤ sl.cap ∧ n ≤ v.length ∧
      ∀ a, s.mem sl.arr = some a → (a.drop (sl.off + sl.len)).take n = v.take n
  | .storing id v old new => old = st id ∧ s.mem.read new = s.mem.read old ++ v ∧ NewOK s st id new
  | .writing _ id saved new => saved = st ∧ NewOK s st id new
  | _ => True

def IsWriting (p : MPC) : Prop := ∃ op id saved new, p = .writing op id saved new

/-- `st` is the store's map, as it was before the write in progress if there is one. -/
structure MInv (s : MConc) (st : GoString → Slice) : Prop where
  heap : HeapInv ⟨s.mem, st⟩
  store : (∀ t, ¬ IsWriting (s.pc t)) → s.store = st
  live : ∀ sl, Live s sl → HeapSafe ⟨s.mem, st⟩ sl
  ghost : ∀ t sl b, (t, sl, b) ∈ s.given → s.mem.read sl = b
  pcs : ∀ t, PCok s st (s.pc t)

theorem read_eq (mem : Mem) (st : GoString → Slice) (sl : Slice) : mem.read sl = (⟨mem, st⟩ : HeapKV).read sl := rfl

theorem read_nil {mem : Mem} {sl : Slice} (h : sl.len = 0) : mem.read sl = [] := by
  unfold Mem.read; simp [h]

theorem at_same (s : MConc) (t : Nat) (p : MPC) : s.at t p t = p := by simp [MConc.at]
theorem at_other (s : MConc) (t t' : Nat) (p : MPC) (h : t' ≠ t) : s.at t p t' = s.pc t' := by
  simp [MConc.at, h]

theorem abs_at (s : MConc) (t : Nat) (p : MPC) (mem : Mem) (store : GoString → Slice) (w : Bool) (r : Nat)
    (g : List (Nat × Slice × Bytes))
    (hpc : ∀ t', t' ≠ t → absPC mem (s.pc t') = absPC s.mem (s.pc t')) :
    abs ⟨mem, store, w, r, s.at t p, g⟩ =
      ⟨fun k => mem.read (store k), w, r, (abs s).at t (absPC mem p)⟩ := by
  unfold abs
  congr 1
  funext t'
  by_cases h : t' = t
  · subst h; dsimp only; rw [at_same, Conc.at_same]
  · dsimp only; rw [at_other _ _ _ _ h, Conc.at_other _ _ _ _ h]; exact hpc t' h

/-- A goroutine outside the lock. -/
def Passive (p : MPC) : Prop := p = .idle ∨ (∃ op, p = .called op) ∨ ∃ op r, p = .unlocked op r

theorem passive_of_held {mem : Mem} {p : MPC} (h : Conc.held (absPC mem p) = none) : Passive p := by
  cases p with
  | idle => exact .inl rfl
  | called op => exact .inr (.inl ⟨_, rfl⟩)
  | unlocked op r => exact .inr (.inr ⟨_, _, rfl⟩)
  | _ => cases h

theorem passive_not {p : MPC} (h : Passive p) : ¬ IsWriting p := by
  rintro ⟨op, id, saved, new, rfl⟩
  rcases h with h | ⟨_, h⟩ | ⟨_, _, h⟩ <;> cases h

theorem passive_ok {p : MPC} (h : Passive p) (s : MConc) (st : GoString → Slice) : PCok s st p := by
  rcases h with rfl | ⟨_, rfl⟩ | ⟨_, _, rfl⟩ <;> trivial

/-- While a goroutine holds the write lock, all others are outside. -/
theorem others {h : List Ev} {s : MConc} (he : Conc.Exec h (abs s)) {t t' : Nat} {op : KVOp}
    (hh : Conc.held (absPC s.mem (s.pc t)) = some op) (hw : lockOf op = .write) (hne : t' ≠ t) :
    Passive (s.pc t') := by
  apply passive_of_held (mem := s.mem)
  cases hp : Conc.held (absPC s.mem (s.pc t')) with
  | none => rfl
  | some op' => exact absurd (Conc.only_writer (Conc.lockInv he) hh hw hp) hne

/-- While a goroutine holds the read lock, nobody writes. -/
theorem no_writer_of_reader {h : List Ev} {s : MConc} (he : Conc.Exec h (abs s)) {t t' : Nat} {op op' : KVOp}
    (hh : Conc.held (absPC s.mem (s.pc t)) = some op) (hw : lockOf op = .read)
    (hh' : Conc.held (absPC s.mem (s.pc t')) = some op') : lockOf op' = .read := by
  cases hk : lockOf op' with
  | read => rfl
  | write =>
    by_cases hne : t = t'
    · subst hne; rw [hh] at hh'; injection hh' with e; subst e; rw [hw] at hk; cases hk
    · exact absurd (Conc.only_writer (Conc.lockInv he) hh' hk hh) hne

theorem writing_kind {h : List Ev} {s : MConc} (he : Conc.Exec h (abs s)) {t : Nat} {op : KVOp} {id : GoString}
    {saved : GoString → Slice} {new : Slice} (hp : s.pc t = .writing op id saved new) : lockOf op = .write := by
  obtain ⟨l, hs⟩ := Conc.sim he
  have hp' : (abs s).pc t = .writing op id (fun k => s.mem.read (saved k)) (s.mem.read new) := by
    show absPC s.mem (s.pc t) = _
    rw [hp]; rfl
  rcases (hs.writing t op id _ _ hp').2 with rfl | ⟨v, rfl, -⟩ <;> rfl

/-- Changing one goroutine's position without handing out a new slice. -/
theorem quiet {s : MConc} {st : GoString → Slice} (hi : MInv s st) (t : Nat) (p : MPC) (w : Bool) (r : Nat)
    (hl : ∀ sl, sl.len ≠ 0 → p.slice = some sl → Live s sl) (hok : PCok s st p)
    (hw : IsWriting p ↔ IsWriting (s.pc t)) :
    MInv ⟨s.mem, s.store, w, r, s.at t p, s.given⟩ st := by
  have hlive : ∀ sl, Live ⟨s.mem, s.store, w, r, s.at t p, s.given⟩ sl → Live s sl := by
    rintro sl ⟨h0, ⟨t', ht'⟩ | hg⟩
    · by_cases h : t' = t
      · subst h; dsimp only at ht'; rw [at_same] at ht'; exact hl sl h0 ht'
      · dsimp only at ht'; rw [at_other _ _ _ _ h] at ht'; exact ⟨h0, .inl ⟨t', ht'⟩⟩
    · exact ⟨h0, .inr hg⟩
  have hmono : ∀ q, PCok s st q → PCok ⟨s.mem, s.store, w, r, s.at t p, s.given⟩ st q := by
    intro q hq
    cases q with
    | storing id v old new => exact ⟨hq.1, hq.2.1, hq.2.2.1, fun sl h => hq.2.2.2 sl (hlive sl h)⟩
    | writing op id saved new => exact ⟨hq.1, hq.2.1, fun sl h => hq.2.2 sl (hlive sl h)⟩
    | loaded op sl => cases op <;> exact hq
    | _ => exact hq
  refine ⟨hi.heap, fun hno => hi.store fun t' hw' => ?_, fun sl h => hi.live sl (hlive sl h), hi.ghost, fun t' => ?_⟩
  · by_cases h : t' = t
    · subst h; exact hno t' (by dsimp only; rw [at_same]; exact hw.mpr hw')
    · exact hno t' (by dsimp only; rw [at_other _ _ _ _ h]; exact hw')
  · by_cases h : t' = t
    · subst h; dsimp only; rw [at_same]; exact hmono _ hok
    · dsimp only; rw [at_other _ _ _ _ h]; exact hmono _ (hi.pcs t')

/-- A step of the goroutine that holds the write lock: all others are outside. -/
theorem alone {s : MConc} {st : GoString → Slice} (hi : MInv s st) (t : Nat) (p : MPC) (mem' : Mem)
    (store' st' : GoString → Slice)
    (hoth : ∀ t', t' ≠ t → Passive (s.pc t'))
    (hsl : ∀ sl, sl.len ≠ 0 → p.slice ≠ some sl)
    (hheap : HeapInv ⟨mem', st'⟩)
    (hkeep : ∀ sl, Live s sl → HeapSafe ⟨mem', st'⟩ sl ∧ mem'.read sl = s.mem.read sl)
    (hstore : ¬ IsWriting p → store' = st')
    (hok : ∀ s' : MConc, s'.mem = mem' → (∀ sl, Live s' sl → Live s sl) → PCok s' st' p) :
    MInv ⟨mem', store', s.writer, s.readers, s.at t p, s.given⟩ st' ∧
      ∀ t', t' ≠ t → absPC mem' (s.pc t') = absPC s.mem (s.pc t') := by
  have hlive : ∀ sl, Live ⟨mem', store', s.writer, s.readers, s.at t p, s.given⟩ sl → Live s sl := by
    rintro sl ⟨h0, ⟨t', ht'⟩ | hg⟩
    · by_cases h : t' = t
      · subst h; dsimp only at ht'; rw [at_same] at ht'; exact absurd ht' (hsl sl h0)
      · dsimp only at ht'; rw [at_other _ _ _ _ h] at ht'; exact ⟨h0, .inl ⟨t', ht'⟩⟩
    · exact ⟨h0, .inr hg⟩
  refine ⟨⟨hheap, fun hno => hstore fun hw => hno t ?_, fun sl h => (hkeep sl (hlive sl h)).1, fun t' sl b hg => ?_,
    fun t' => ?_⟩, fun t' h => ?_⟩
  · dsimp only; rw [at_same]; exact hw
  · by_cases h0 : sl.len = 0
    · have := hi.ghost t' sl b hg
      rw [read_nil h0] at this ⊢
      exact this
    · exact ((hkeep sl ⟨h0, .inr ⟨t', b, hg⟩⟩).2).trans (hi.ghost t' sl b hg)
  · by_cases h : t' = t
    · subst h; dsimp only; rw [at_same]; exact hok _ rfl hlive
    · dsimp only; rw [at_other _ _ _ _ h]; exact passive_ok (hoth t' h) _ _
  · rcases hoth t' h with e | ⟨op, e⟩ | ⟨op, r, e⟩
    · rw [e]; rfl
    · rw [e]; rfl
    · rw [e]
      show PC.unlocked op (mem'.read r) = PC.unlocked op (s.mem.read r)
      congr 1
      by_cases h0 : r.len = 0
      · rw [read_nil h0, read_nil h0]
      · exact (hkeep r ⟨h0, .inl ⟨t', by rw [e]; rfl⟩⟩).2

/-- Writing one byte behind the end of a stored slice, within its capacity. -/
theorem poke {mem : Mem} {st : GoString → Slice} (hi : HeapInv ⟨mem, st⟩) (id : GoString) (n : Nat) (b : UInt8)
    (a : Bytes) (hcap : (st id).len + n < (st id).cap) (ha : mem (st id).arr = some a) :
    HeapInv ⟨fun x => if x = (st id).arr then some (overwrite a ((st id).off + (st id).len + n) [b]) else mem x, st⟩ ∧
      ∀ sl, HeapSafe ⟨mem, st⟩ sl →
        HeapSafe ⟨fun x => if x = (st id).arr then some (overwrite a ((st id).off + (st id).len + n) [b]) else mem x, st⟩ sl ∧
        Mem.read (fun x => if x = (st id).arr then some (overwrite a ((st id).off + (st id).len + n) [b]) else mem x) sl =
          mem.read sl := by
  have hc0 : (st id).cap ≠ 0 := by omega
  have hbound : (st id).off + (st id).cap ≤ a.length := by
    obtain ⟨hl, h0 | ⟨c, hc, hle⟩⟩ := hi.valid id
    · exact absurd h0 hc0
    · dsimp only at hc hle; rw [ha] at hc; injection hc with hc; subst hc; exact hle
  have hol := overwrite_length a [b] ((st id).off + (st id).len + n) (by simp; omega)
  refine ⟨⟨fun k => ?_, hi.own⟩, fun sl hs => ?_⟩
  · obtain ⟨hl, h0 | ⟨c, hc, hle⟩⟩ := hi.valid k
    · exact ⟨hl, .inl h0⟩
    · refine ⟨hl, .inr ?_⟩
      dsimp only at hc hle ⊢
      by_cases he : (st k).arr = (st id).arr
      · rw [if_pos he]
        rw [he, ha] at hc; injection hc with hc; subst hc
        exact ⟨_, rfl, by rw [hol]; exact hle⟩
      · rw [if_neg he]; exact ⟨c, hc, hle⟩
  · rcases hs with h0 | ⟨⟨c, hc, hle⟩, hk⟩
    · exact ⟨.inl h0, by rw [read_nil h0, read_nil h0]⟩
    · dsimp only at hc
      by_cases he : sl.arr = (st id).arr
      · rw [he, ha] at hc; injection hc with hc; subst hc
        refine ⟨.inr ⟨⟨_, ?_, by rw [hol]; exact hle⟩, hk⟩, ?_⟩
        · dsimp only; rw [if_pos he]
        · have := hk id hc0 he.symm
          dsimp only at this
          unfold Mem.read
          dsimp only
          rw [if_pos he, he, ha, Option.getD_some, Option.getD_some]
          exact overwrite_before _ _ _ _ _ (by omega) (by omega)
      · refine ⟨.inr ⟨⟨c, ?_, hle⟩, hk⟩, ?_⟩
        · dsimp only; rw [if_neg he]; exact hc
        · unfold Mem.read; dsimp only; rw [if_neg he]

/-- The stored slice made longer, within its capacity. -/
theorem extend {mem : Mem} {st : GoString → Slice} (hi : HeapInv ⟨mem, st⟩) (id : GoString) (n : Nat)
    (hcap : (st id).len + n ≤ (st id).cap) :
    HeapInv ⟨mem, upd st id { st id with len := (st id).len + n }⟩ ∧
      ∀ sl, HeapSafe ⟨mem, st⟩ sl → HeapSafe ⟨mem, upd st id { st id with len := (st id).len + n }⟩ sl := by
  have e : ∀ j, (upd st id { st id with len := (st id).len + n } j).cap = (st j).cap ∧
      (upd st id { st id with len := (st id).len + n } j).arr = (st j).arr ∧
      (upd st id { st id with len := (st id).len + n } j).off = (st j).off ∧
      (st j).len ≤ (upd st id { st id with len := (st id).len + n } j).len ∧
      ((st j).len ≤ (st j).cap → (upd st id { st id with len := (st id).len + n } j).len ≤ (st j).cap) := by
    intro j
    unfold upd
    by_cases hj : j = id
    · subst hj; simp [hcap]
    · simp [hj]
  refine ⟨⟨fun k => ?_, fun k k' hne hc hc' => ?_⟩, fun sl hs => ?_⟩
  · obtain ⟨h1, h2, h3, h4, h5⟩ := e k
    obtain ⟨hl, h0⟩ := hi.valid k
    unfold HeapKV.Valid
    dsimp only at *
    rw [h1, h2, h3]
    exact ⟨h5 hl, h0⟩
  · dsimp only at *
    rw [(e k).2.1, (e k').2.1]
    rw [(e k).1] at hc
    rw [(e k').1] at hc'
    exact hi.own k k' hne hc hc'
  · rcases hs with h0 | ⟨hc, hk⟩
    · exact .inl h0
    · refine .inr ⟨hc, fun k hck he => ?_⟩
      dsimp only at *
      rw [(e k).1] at hck
      rw [(e k).2.1] at he
      have := hk k hck he
      rw [(e k).2.2.1]
      have := (e k).2.2.2.1
      omega

theorem read_extend {a v : Bytes} {off len : Nat} (h : (a.drop (off + len)).take v.length = v) :
    (a.drop off).take (len + v.length) = (a.drop off).take len ++ v := by
  rw [List.take_add, List.drop_drop]
  congr 1

theorem overwrite_prefix {a v : Bytes} {pos n : Nat} {b : UInt8} (hb : v[n]? = some b) (hl : pos + n < a.length)
    (h : (a.drop pos).take n = v.take n) :
    ((overwrite a (pos + n) [b]).drop pos).take (n + 1) = v.take (n + 1) := by
  have h1 : ((overwrite a (pos + n) [b]).drop pos).take (n + 1) = (a.drop pos).take n ++ [b] := by
    have := overwrite_extend a [b] pos n (by simp; omega)
    simpa using this
  rw [h1, h, List.take_add_one, hb]
  rfl

theorem step {h : List Ev} {s s' : MConc} {l : Option Ev} {st : GoString → Slice} (he : Conc.Exec h (abs s))
    (hi : MInv s st) (hs : MConc.Step s l s') : Conc.Exec (h ++ l.toList) (abs s') ∧ ∃ st', MInv s' st' := by
  have hsame : ∀ (t t' : Nat), t' ≠ t → absPC s.mem (s.pc t') = absPC s.mem (s.pc t') := fun _ _ _ => rfl
  have hpc : ∀ t p, s.pc t = p → (abs s).pc t = absPC s.mem p := by
    intro t p e; show absPC s.mem (s.pc t) = _; rw [e]
  have hst : ∀ t op, Conc.held (absPC s.mem (s.pc t)) = some op → lockOf op = .write → ¬ IsWriting (s.pc t) →
      s.store = st := by
    intro t op h1 h2 h3
    refine hi.store fun t' => ?_
    by_cases hne : t' = t
    · subst hne; exact h3
    · exact passive_not (others he h1 h2 hne)
  have nw : ∀ p : MPC, (∀ op id saved new, p ≠ .writing op id saved new) → ¬ IsWriting p := by
    rintro p h1 ⟨op, id, saved, new, rfl⟩; exact h1 _ _ _ _ rfl
  have stutter : ∀ s'', abs s'' = abs s → Conc.Exec (h ++ (none : Option Ev).toList) (abs s'') := by
    intro s'' e; rw [e]; simpa using he
  cases hs with
  | call t op hp =>
    refine ⟨.step he ?_, st, quiet hi t _ _ _ (by intro _ _ h; cases h) trivial ?_⟩
    · rw [abs_at s t _ _ _ _ _ _ (hsame t)]
      exact .call _ t op (hpc _ _ hp)
    · rw [hp]; exact ⟨fun ⟨_, _, _, _, e⟩ => (by cases e), fun ⟨_, _, _, _, e⟩ => (by cases e)⟩
  | lock t op hp hk hw hr =>
    refine ⟨.step he ?_, st, quiet hi t _ _ _ (by intro _ _ h; cases h) trivial ?_⟩
    · rw [abs_at s t _ _ _ _ _ _ (hsame t)]
      exact .lock _ t op (hpc _ _ hp) hk hw hr
    · rw [hp]; exact ⟨fun ⟨_, _, _, _, e⟩ => (by cases e), fun ⟨_, _, _, _, e⟩ => (by cases e)⟩
  | rlock t op hp hk hw =>
    refine ⟨.step he ?_, st, quiet hi t _ _ _ (by intro _ _ h; cases h) trivial ?_⟩
    · rw [abs_at s t _ _ _ _ _ _ (hsame t)]
      exact .rlock _ t op (hpc _ _ hp) hk hw
    · rw [hp]; exact ⟨fun ⟨_, _, _, _, e⟩ => (by cases e), fun ⟨_, _, _, _, e⟩ => (by cases e)⟩
  | loadAppend t id v hp =>
    have hss : s.store = st := hst t (.append id v) (by rw [hp]; rfl) rfl (by rw [hp]; exact nw _ (by intros; simp))
    refine ⟨.step he ?_, st, quiet hi t _ _ _ (by intro _ _ h; cases h) (by rw [hss]; exact rfl) ?_⟩
    · rw [abs_at s t _ _ _ _ _ _ (hsame t)]
      exact .loadAppend _ t id v (hpc _ _ hp)
    · rw [hp]; exact ⟨fun ⟨_, _, _, _, e⟩ => (by cases e), fun ⟨_, _, _, _, e⟩ => (by cases e)⟩
  | loadGet t id hp =>
    have hrd : Conc.held (absPC s.mem (s.pc t)) = some (.get id) := by rw [hp]; rfl
    have hnw : ∀ t', ¬ IsWriting (s.pc t') := by
      rintro t' ⟨op, id', saved, new, e⟩
      have := no_writer_of_reader he hrd rfl (t' := t') (op' := op) (by rw [e]; rfl)
      rw [writing_kind he e] at this; cases this
    have hns : ∀ t' id' v old new, s.pc t' ≠ .storing id' v old new := by
      intro t' id' v old new e
      have := no_writer_of_reader he hrd rfl (t' := t') (op' := .append id' v) (by rw [e]; rfl)
      cases this
    have hss : s.store = st := hi.store hnw
    refine ⟨.step he ?_, st, ?_⟩
    · rw [abs_at s t _ _ _ _ _ _ (hsame t)]
      exact .loadGet _ t id (hpc _ _ hp)
    · have hat : ∀ t', s.at t (.loaded (.get id) (s.store id)) t' = .loaded (.get id) (s.store id) ∨
          s.at t (.loaded (.get id) (s.store id)) t' = s.pc t' := by
        intro t'; by_cases h : t' = t
        · subst h; left; exact at_same _ _ _
        · right; exact at_other _ _ _ _ h
      refine ⟨hi.heap, fun _ => hss, ?_, hi.ghost, fun t' => ?_⟩
      · rintro sl ⟨h0, ⟨t', ht'⟩ | hg⟩
        · dsimp only at ht'
          rcases hat t' with e | e
          · rw [e, hss] at ht'
            injection ht' with ht'; subst ht'
            exact heapSafe_get hi.heap id
          · rw [e] at ht'; exact hi.live sl ⟨h0, .inl ⟨t', ht'⟩⟩
        · exact hi.live sl ⟨h0, .inr hg⟩
      · dsimp only
        rcases hat t' with e | e
        · rw [e]; trivial
        · rw [e]
          have hold := hi.pcs t'
          cases hq : s.pc t' with
          | storing id' v old new => exact absurd hq (hns t' id' v old new)
          | writing op id' saved new => exact absurd ⟨op, id', saved, new, hq⟩ (hnw t')
          | loaded op sl => rw [hq] at hold; cases op <;> exact hold
          | copying id v sl n => rw [hq] at hold; exact hold
          | _ => trivial
  | retGet t id sl hp =>
    refine ⟨.step he ?_, st, quiet hi t _ _ _ ?_ trivial ?_⟩
    · rw [abs_at s t _ _ _ _ _ _ (hsame t)]
      exact .retGet _ t id _ (hpc _ _ hp)
    · intro sl' h0 e
      injection e with e; subst e
      exact ⟨h0, .inl ⟨t, by rw [hp]; rfl⟩⟩
    · rw [hp]; exact ⟨fun ⟨_, _, _, _, e⟩ => (by cases e), fun ⟨_, _, _, _, e⟩ => (by cases e)⟩
  | beginCopy t id v sl hp hcap =>
    have hok := hi.pcs t
    rw [hp] at hok
    have hok : sl = st id := hok
    refine ⟨stutter _ ?_, st, quiet hi t _ _ _ (by intro _ _ h; cases h)
      ⟨hok, hcap, Nat.zero_le _, fun a _ => by simp⟩ ?_⟩
    · rw [abs_at s t _ _ _ _ _ _ (hsame t)]
      show Conc.mk _ _ _ _ = abs s
      unfold abs; congr 1; funext t'
      by_cases h : t' = t
      · subst h; rw [Conc.at_same, hp]; rfl
      · rw [Conc.at_other _ _ _ _ h]
    · rw [hp]; exact ⟨fun ⟨_, _, _, _, e⟩ => (by cases e), fun ⟨_, _, _, _, e⟩ => (by cases e)⟩
  | copyByte t id v sl n b a hp hb ha =>
    have hok := hi.pcs t
    rw [hp] at hok
    obtain ⟨hsl, hcap, hn, hpre⟩ := hok
    have hnl : n < v.length := (List.getElem?_eq_some_iff.mp hb).1
    have hh : Conc.held (absPC s.mem (s.pc t)) = some (.append id v) := by rw [hp]; rfl
    have hss : s.store = st := hst t _ hh rfl (by rw [hp]; exact nw _ (by intros; simp))
    subst hsl
    obtain ⟨hh1, hh2⟩ := poke hi.heap id n b a (by omega) ha
    obtain ⟨hm, hab⟩ := alone hi t (.copying id v (st id) (n + 1))
      (fun x => if x = (st id).arr then some (overwrite a ((st id).off + (st id).len + n) [b]) else s.mem x)
      s.store st (fun t' hne => others he hh rfl hne) (by intro _ _ h; cases h) hh1
      (fun sl hl => hh2 sl (hi.live sl hl)) (fun _ => hss) (by
        intro s' hm' _
        refine ⟨rfl, hcap, hnl, fun a' ha' => ?_⟩
        rw [hm'] at ha'
        dsimp only at ha'
        rw [if_pos rfl] at ha'
        injection ha' with ha'
        subst ha'
        refine overwrite_prefix hb ?_ (hpre a ha)
        obtain ⟨_, h0 | ⟨c, hc, hle⟩⟩ := hi.heap.valid id
        · dsimp only at h0; omega
        · dsimp only at hc hle; rw [ha] at hc; injection hc with hc; subst hc; omega)
    refine ⟨stutter _ ?_, st, hm⟩
    rw [abs_at s t _ _ _ _ _ _ hab]
    unfold abs
    congr 1
    · funext k
      rw [hss]
      exact (hh2 _ (heapSafe_get hi.heap k)).2
    · funext t'
      by_cases h : t' = t
      · subst h; rw [Conc.at_same, hp]
        show PC.loaded _ _ = PC.loaded _ _
        congr 1
        exact (hh2 _ (heapSafe_get hi.heap id)).2
      · rw [Conc.at_other _ _ _ _ h]
  | endCopy t id v sl hp =>
    have hok := hi.pcs t
    rw [hp] at hok
    obtain ⟨hsl, hcap, hn, hpre⟩ := hok
    subst hsl
    obtain ⟨he1, he2⟩ := extend hi.heap id v.length hcap
    refine ⟨stutter _ ?_, st, quiet hi t _ _ _ (by intro _ _ h; cases h)
      ⟨rfl, ?_, he1, fun sl hl => he2 sl (hi.live sl hl)⟩ ?_⟩
    · rw [abs_at s t _ _ _ _ _ _ (hsame t)]
      unfold abs; congr 1; funext t'
      by_cases h : t' = t
      · subst h; rw [Conc.at_same, hp]; rfl
      · rw [Conc.at_other _ _ _ _ h]
    · obtain ⟨hl, h0 | ⟨c, hc, hle⟩⟩ := hi.heap.valid id
      · dsimp only at h0 hl
        have : v = [] := List.length_eq_zero_iff.mp (by omega)
        subst this
        rw [read_nil (show (st id).len = 0 by omega)]
        exact read_nil (show (st id).len + 0 = 0 by omega)
      · dsimp only at hc hle
        unfold Mem.read
        dsimp only
        rw [hc, Option.getD_some]
        refine read_extend ?_
        rw [hpre c hc, List.take_length]
    · rw [hp]; exact ⟨fun ⟨_, _, _, _, e⟩ => (by cases e), fun ⟨_, _, _, _, e⟩ => (by cases e)⟩
  | grow t id v sl spare a hp hcap ha =>
    have hok := hi.pcs t
    rw [hp] at hok
    have hsl : sl = st id := hok
    subst hsl
    have hh : Conc.held (absPC s.mem (s.pc t)) = some (.append id v) := by rw [hp]; rfl
    have hss : s.store = st := hst t _ hh rfl (by rw [hp]; exact nw _ (by intros; simp))
    obtain ⟨ha1, ha2⟩ := heap_step hi.heap (.alloc ⟨s.mem, st⟩ (s.mem.read (st id) ++ v ++ spare) a ha)
      (by intros; simp)
    obtain ⟨hg1, hg2⟩ := heap_step hi.heap (.appendGrow ⟨s.mem, st⟩ id v spare a hcap ha) (by intros; simp)
    have hlen : (s.mem.read (st id)).length = (st id).len := read_length (hi.heap.valid id)
    obtain ⟨hm, hab⟩ := alone hi t
      (.storing id v (st id) ⟨a, 0, (st id).len + v.length, (st id).len + v.length + spare.length⟩)
      (fun x => if x = a then some (s.mem.read (st id) ++ v ++ spare) else s.mem x)
      s.store st (fun t' hne => others he hh rfl hne) (by intro _ _ h; cases h) ha1
      (fun sl hl => ha2 sl (hi.live sl hl)) (fun _ => hss) (by
        intro s' hm' hl'
        refine ⟨rfl, ?_, ?_, fun sl hl => ?_⟩
        · rw [hm']
          have h2 := (ha2 _ (heapSafe_get hi.heap id)).2
          have h2 : Mem.read (fun x => if x = a then some (s.mem.read (st id) ++ v ++ spare) else s.mem x) (st id) =
            s.mem.read (st id) := h2
          rw [h2]
          generalize s.mem.read (st id) = r at hlen
          unfold Mem.read
          dsimp only
          rw [if_pos rfl, Option.getD_some, List.drop_zero, ← hlen, ← List.length_append, List.take_left]
        · rw [hm']; exact hg1
        · rw [hm']; exact (hg2 sl (hi.live sl (hl' sl hl))).1)
    refine ⟨stutter _ ?_, st, hm⟩
    rw [abs_at s t _ _ _ _ _ _ hab]
    unfold abs
    congr 1
    · funext k
      rw [hss]
      exact (ha2 _ (heapSafe_get hi.heap k)).2
    · funext t'
      by_cases h : t' = t
      · subst h; rw [Conc.at_same, hp]
        show PC.loaded _ _ = PC.loaded _ _
        congr 1
        exact (ha2 _ (heapSafe_get hi.heap id)).2
      · rw [Conc.at_other _ _ _ _ h]
  | beginAppend t id v old new junk hp =>
    have hok := hi.pcs t
    rw [hp] at hok
    obtain ⟨hold, hrd, hn1, hn2⟩ := hok
    have hh : Conc.held (absPC s.mem (s.pc t)) = some (.append id v) := by rw [hp]; rfl
    have hss : s.store = st := hst t _ hh rfl (by rw [hp]; exact nw _ (by intros; simp))
    obtain ⟨hm, hab⟩ := alone hi t (.writing (.append id v) id s.store new) s.mem junk st
      (fun t' hne => others he hh rfl hne) (by intro _ _ h; cases h) hi.heap (fun sl hl => ⟨hi.live sl hl, rfl⟩)
      (fun hno => absurd ⟨_, _, _, _, rfl⟩ hno) (by
        intro s' hm' hl'
        refine ⟨hss, by rw [hm']; exact hn1, fun sl hl => by rw [hm']; exact hn2 sl (hl' sl hl)⟩)
    refine ⟨.step he ?_, st, hm⟩
    rw [abs_at s t _ _ _ _ _ _ hab]
    have e : absPC s.mem (.writing (.append id v) id s.store new) =
        .writing (.append id v) id (abs s).store (s.mem.read old ++ v) := by
      rw [← hrd]; rfl
    rw [e]
    exact .beginAppend _ t id v _ _ (hpc _ _ hp)
  | beginPut t id v spare a junk hp ha =>
    have hh : Conc.held (absPC s.mem (s.pc t)) = some (.put id v) := by rw [hp]; rfl
    have hss : s.store = st := hst t _ hh rfl (by rw [hp]; exact nw _ (by intros; simp))
    obtain ⟨ha1, ha2⟩ := heap_step hi.heap (.alloc ⟨s.mem, st⟩ (v ++ spare) a ha) (by intros; simp)
    obtain ⟨hg1, hg2⟩ := heap_step hi.heap (.putNew ⟨s.mem, st⟩ id v spare a ha) (by intros; simp)
    obtain ⟨hm, hab⟩ := alone hi t
      (.writing (.put id v) id s.store ⟨a, 0, v.length, v.length + spare.length⟩)
      (fun x => if x = a then some (v ++ spare) else s.mem x)
      junk st (fun t' hne => others he hh rfl hne) (by intro _ _ h; cases h) ha1
      (fun sl hl => ha2 sl (hi.live sl hl)) (fun hno => absurd ⟨_, _, _, _, rfl⟩ hno) (by
        intro s' hm' hl'
        exact ⟨hss, by rw [hm']; exact hg1, fun sl hl => by rw [hm']; exact (hg2 sl (hi.live sl (hl' sl hl))).1⟩)
    refine ⟨.step he ?_, st, hm⟩
    rw [abs_at s t _ _ _ _ _ _ hab]
    have e : absPC (fun x => if x = a then some (v ++ spare) else s.mem x)
        (.writing (.put id v) id s.store ⟨a, 0, v.length, v.length + spare.length⟩) =
        .writing (.put id v) id (abs s).store v := by
      show PC.writing _ _ _ _ = PC.writing _ _ _ _
      congr 1
      · funext k
        rw [hss]
        refine ((ha2 _ (heapSafe_get hi.heap k)).2).trans ?_
        show s.mem.read (st k) = s.mem.read (s.store k)
        rw [hss]
      · unfold Mem.read
        dsimp only
        rw [if_pos rfl, Option.getD_some, List.drop_zero, List.take_left]
    rw [e]
    exact .beginPut _ t id v _ (hpc _ _ hp)
  | endWrite t op id saved new hp =>
    have hok := hi.pcs t
    rw [hp] at hok
    obtain ⟨hsv, hn1, hn2⟩ := hok
    have hh : Conc.held (absPC s.mem (s.pc t)) = some op := by rw [hp]; rfl
    have hk := writing_kind he hp
    obtain ⟨hm, hab⟩ := alone hi t (.finished op Slice.nil) s.mem (upd saved id new) (upd st id new)
      (fun t' hne => others he hh hk hne)
      (by intro sl h0 e; injection e with e; subst e; exact h0 rfl) hn1 (fun sl hl => ⟨hn2 sl hl, rfl⟩)
      (fun _ => by rw [hsv]) (fun _ _ _ => trivial)
    refine ⟨.step he ?_, upd st id new, hm⟩
    have e := abs_at s t (.finished op Slice.nil) s.mem (upd saved id new) s.writer s.readers s.given hab
    show Conc.Step (abs s) none (abs ⟨s.mem, upd saved id new, s.writer, s.readers, s.at t _, s.given⟩)
    rw [e]
    have e1 : (fun k => s.mem.read (upd saved id new k)) =
        fun k => if k = id then s.mem.read new else s.mem.read (saved k) := by
      funext k; unfold upd
      by_cases h : k = id
      · rw [if_pos h, if_pos h]
      · rw [if_neg h, if_neg h]
    have e2 : absPC s.mem (.finished op Slice.nil) = .finished op [] := by
      show PC.finished _ _ = PC.finished _ _
      exact congrArg _ (read_nil rfl)
    rw [e1, e2]
    exact .endWrite _ t op id _ _ (hpc _ _ hp)
  | unlock t op r hp hk =>
    refine ⟨.step he ?_, st, quiet hi t _ _ _ ?_ trivial ?_⟩
    · rw [abs_at s t _ _ _ _ _ _ (hsame t)]
      exact .unlock _ t op _ (hpc _ _ hp) hk
    · intro sl' h0 e
      injection e with e; subst e
      exact ⟨h0, .inl ⟨t, by rw [hp]; rfl⟩⟩
    · rw [hp]; exact ⟨fun ⟨_, _, _, _, e⟩ => (by cases e), fun ⟨_, _, _, _, e⟩ => (by cases e)⟩
  | runlock t op r hp hk =>
    refine ⟨.step he ?_, st, quiet hi t _ _ _ ?_ trivial ?_⟩
    · rw [abs_at s t _ _ _ _ _ _ (hsame t)]
      exact .runlock _ t op _ (hpc _ _ hp) hk
    · intro sl' h0 e
      injection e with e; subst e
      exact ⟨h0, .inl ⟨t, by rw [hp]; rfl⟩⟩
    · rw [hp]; exact ⟨fun ⟨_, _, _, _, e⟩ => (by cases e), fun ⟨_, _, _, _, e⟩ => (by cases e)⟩
  | ret t op r hp =>
    refine ⟨.step he ?_, st, ?_⟩
    · rw [abs_at s t _ _ _ _ _ _ (hsame t)]
      exact .ret _ t op _ (hpc _ _ hp)
    · have hq := quiet hi t .idle s.writer s.readers (by intro _ _ h; cases h) trivial
        (by rw [hp]; exact ⟨fun ⟨_, _, _, _, e⟩ => (by cases e), fun ⟨_, _, _, _, e⟩ => (by cases e)⟩)
      have hlive : ∀ sl, Live ⟨s.mem, s.store, s.writer, s.readers, s.at t .idle, (t, r, s.mem.read r) :: s.given⟩ sl →
          Live s sl := by
        rintro sl ⟨h0, ⟨t', ht'⟩ | ⟨t', b, hg⟩⟩
        · by_cases h : t' = t
          · subst h; dsimp only at ht'; rw [at_same] at ht'; cases ht'
          · dsimp only at ht'; rw [at_other _ _ _ _ h] at ht'; exact ⟨h0, .inl ⟨t', ht'⟩⟩
        · rcases List.mem_cons.mp hg with e | hg
          · injection e with _ e; injection e with e _; subst e
            exact ⟨h0, .inl ⟨t, by rw [hp]; rfl⟩⟩
          · exact ⟨h0, .inr ⟨t', b, hg⟩⟩
      refine ⟨hi.heap, hq.store, fun sl hl => hi.live sl (hlive sl hl), fun t' sl b hg => ?_, fun t' => ?_⟩
      · rcases List.mem_cons.mp hg with e | hg
        · injection e with _ e; injection e with e e2; subst e; exact e2.symm
        · exact hi.ghost t' sl b hg
      · by_cases h : t' = t
        · subst h; dsimp only; rw [at_same]; trivial
        · dsimp only; rw [at_other _ _ _ _ h]
          have hold := hi.pcs t'
          cases hq : s.pc t' with
          | storing id' v old new =>
            rw [hq] at hold
            exact ⟨hold.1, hold.2.1, hold.2.2.1, fun sl h => hold.2.2.2 sl (hlive sl h)⟩
          | writing op id' saved new =>
            rw [hq] at hold
            exact ⟨hold.1, hold.2.1, fun sl h => hold.2.2 sl (hlive sl h)⟩
          | loaded op sl => rw [hq] at hold; cases op <;> exact hold
          | copying id v sl n => rw [hq] at hold; exact hold
          | _ => trivial

theorem exec_abs {mem : Mem} {h : List Ev} {s : MConc} (he : MConc.Exec mem h s) :
    Conc.Exec h (abs s) ∧ ∃ st, MInv s st := by
  induction he with
  | start =>
    refine ⟨?_, fun _ => Slice.nil, heapInv_start mem, fun _ => rfl, ?_, ?_, fun _ => trivial⟩
    · have : abs (MConc.start mem) = Conc.start := by
        unfold abs MConc.start Conc.start
        congr 1
      rw [this]; exact .start
    · rintro sl ⟨_, ⟨t, e⟩ | ⟨t, b, e⟩⟩ <;> cases e
    · intro t sl b e; cases e
  | step _ hs ih =>
    obtain ⟨h1, st, h2⟩ := ih
    exact step h1 h2 hs

end Migp.MConc
