import Verif.Lemmas.KVMem
import Verif.Props.ConcInsert
/-!
# C62: the store under concurrency, with slices that share memory
-/
namespace Migp.Props
open Migp.Spec

/-- C62: every history of the store is linearisable, for any number of goroutines, any interleaving of their steps
down to single bytes written by `append`, and any growth policy. What a call returned is the bytes its slice shows when
its caller gets it. -/
theorem C62_linearizable (mem : Mem) (h : List Ev) (s : MConc) (he : MConc.Exec mem h s) : Linearizable h :=
  C48_linearizable h _ (MConc.exec_abs he).1

theorem steps_exec {mem : Mem} {h : List Ev} {s s' : MConc} (he : MConc.Exec mem h s) (hs : MConc.Steps s s') :
    ∃ h', MConc.Exec mem (h ++ h') s' := by
  induction hs with
  | refl => exact ⟨[], by simpa using he⟩
  | step _ h1 ih =>
    obtain ⟨h', ih⟩ := ih
    have := MConc.Exec.step ih h1
    rw [List.append_assoc] at this
    exact ⟨_, this⟩

theorem steps_given {s s' : MConc} (hs : MConc.Steps s s') : ∀ x ∈ s.given, x ∈ s'.given := by
  induction hs with
  | refl => exact fun _ h => h
  | step _ h1 ih =>
    intro x hx
    have := ih x hx
    cases h1 <;> first | exact this | exact List.mem_cons_of_mem _ this

/-- C62: what a call has returned is a snapshot: whenever its caller looks at the slice later, without any lock and
while other goroutines call the store, the slice shows the bytes it showed when it was returned. -/
theorem C62_snapshot (mem : Mem) (h : List Ev) (s s₁ s' : MConc) (t : Nat) (op : KVOp) (r : Slice) (l : Option Ev)
    (he : MConc.Exec mem h s) (hp : s.pc t = .unlocked op r) (hret : MConc.Step s l s₁) (hidle : s₁.pc t = .idle)
    (hs : MConc.Steps s₁ s') : l = some (.ret t (s.mem.read r)) ∧ s'.mem.read r = s.mem.read r := by
  have key : l = some (.ret t (s.mem.read r)) ∧ (t, r, s.mem.read r) ∈ s₁.given := by
    cases hret with
    | ret t' op' r' hp' =>
      by_cases e : t = t'
      · subst e
        rw [hp] at hp'
        injection hp' with e1 e2
        subst e1; subst e2
        exact ⟨rfl, List.mem_cons_self⟩
      · dsimp only at hidle
        rw [MConc.at_other _ _ _ _ e, hp] at hidle; cases hidle
    | _ =>
      exfalso
      dsimp only at hidle
      unfold MConc.at at hidle
      split at hidle
      · cases hidle
      · rw [hp] at hidle; cases hidle
  refine ⟨key.1, ?_⟩
  obtain ⟨h', he'⟩ := steps_exec (.step he hret) hs
  obtain ⟨-, st, hi⟩ := MConc.exec_abs he'
  exact hi.ghost t r _ (steps_given hs _ key.2)

/-- C62, C49: goroutines that insert records and answer requests, with shared memory: the bytes that a request's `Get`
returned are a concatenation of whole entries; for every goroutine they are an initial part of what it appends to this
bucket, in its program order, and comprise everything it had appended before the request. -/
theorem C62_whole_entries {E : Ext} {cfg : ServerConfig} {s : Server} (hs : NewServer E cfg = .ok s) (mem : Mem)
    (a b c : List Ev) (t : Nat) (k : GoString) (r : Bytes) (st : MConc)
    (he : MConc.Exec mem (a ++ .inv t (.get k) :: (b ++ .ret t r :: c)) st)
    (hb : ∀ r', Ev.ret t r' ∉ b) (jobs : Nat → List Job)
    (hjobs : ∀ t', invoked t' (a ++ .inv t (.get k) :: (b ++ .ret t r :: c)) <+:
      ((jobs t').flatMap (Job.calls E s))) :
    ∃ es : List (Nat × RawEntry), (∀ e ∈ es, e.2.WF) ∧ r = bucket (es.map Prod.snd) ∧
      ∀ t', appendsTo k (completed t' a) <+:
          (es.filter (fun x => x.1 = t')).map (fun x => x.2.bytes) ∧
        (es.filter (fun x => x.1 = t')).map (fun x => x.2.bytes) <+:
          appendsTo k ((jobs t').flatMap (Job.calls E s)) :=
  C49_whole_entries hs a b c t k r _ (MConc.exec_abs he).1 hb jobs hjobs

/-- C62: no data race on the bytes: while a goroutine is about to write a byte of an array, no slice that a call has
returned or is about to return contains this byte, and no other goroutine is between taking and releasing the lock. -/
theorem C62_no_byte_race (mem : Mem) (h : List Ev) (s : MConc) (he : MConc.Exec mem h s) (t : Nat) (a i : Nat)
    (hw : (s.pc t).WritesByte a i) :
    (∀ t' sl b, (t', sl, b) ∈ s.given → ¬ sl.Covers a i) ∧
    (∀ t' op sl, s.pc t' = .unlocked op sl → ¬ sl.Covers a i) ∧
    (∀ t', t' ≠ t → s.pc t' = .idle ∨ (∃ op, s.pc t' = .called op) ∨ ∃ op sl, s.pc t' = .unlocked op sl) := by
  obtain ⟨hc, st, hi⟩ := MConc.exec_abs he
  obtain ⟨id, v, sl, n, hp, hn, rfl, rfl⟩ := hw
  have hok := hi.pcs t
  rw [hp] at hok
  obtain ⟨hsl, hcap, -, -⟩ := hok
  subst hsl
  have hsafe : ∀ r, MConc.Live s r → ¬ r.Covers (st id).arr ((st id).off + (st id).len + n) := by
    rintro r hl ⟨e, h1, h2⟩
    rcases hi.live r hl with h0 | ⟨-, hk⟩
    · omega
    · have := hk id (by dsimp only; omega) e
      dsimp only at this
      omega
  refine ⟨fun t' r b hg hcov => ?_, fun t' op r hp' hcov => ?_, fun t' hne => ?_⟩
  · by_cases h0 : r.len = 0
    · obtain ⟨-, h1, h2⟩ := hcov; omega
    · exact hsafe r ⟨h0, .inr ⟨t', b, hg⟩⟩ hcov
  · by_cases h0 : r.len = 0
    · obtain ⟨-, h1, h2⟩ := hcov; omega
    · exact hsafe r ⟨h0, .inl ⟨t', by rw [hp']; rfl⟩⟩ hcov
  · exact MConc.others hc (op := .append id v) (by rw [hp]; rfl) rfl hne

/-- C62: no deadlock and no crash: as long as some goroutine is in a call, some goroutine in a call can make a step. -/
theorem C62_no_deadlock (mem : Mem) (h : List Ev) (s : MConc) (he : MConc.Exec mem h s) (t : Nat)
    (ht : s.pc t ≠ .idle) (fresh : ∃ a, s.mem a = none) :
    ∃ l s', MConc.Step s l s' ∧ ∀ t op, l ≠ some (.inv t op) := by
  obtain ⟨hc, st, hi⟩ := MConc.exec_abs he
  obtain ⟨a, ha⟩ := fresh
  have hl := Conc.liveInv hc
  have hk := Conc.lockInv hc
  by_cases hh : ∃ t op, Conc.held (MConc.absPC s.mem (s.pc t)) = some op
  · obtain ⟨t, op, hh⟩ := hh
    cases hp : s.pc t with
    | idle => rw [hp] at hh; cases hh
    | called op => rw [hp] at hh; cases hh
    | unlocked op r => rw [hp] at hh; cases hh
    | locked op =>
      cases op with
      | put id v => exact ⟨_, _, .beginPut s t id v [] a s.store hp ha, by intros; simp⟩
      | append id v => exact ⟨_, _, .loadAppend s t id v hp, by intros; simp⟩
      | get id => exact ⟨_, _, .loadGet s t id hp, by intros; simp⟩
    | loaded op sl =>
      cases op with
      | put id w =>
        exact absurd rfl (hl.load t (.put id w) (s.mem.read sl)
          (by show MConc.absPC s.mem (s.pc t) = _; rw [hp]; rfl) id w)
      | append id v =>
        by_cases hcap : sl.len + v.length ≤ sl.cap
        · exact ⟨_, _, .beginCopy s t id v sl hp hcap, by intros; simp⟩
        · exact ⟨_, _, .grow s t id v sl [] a hp (by omega) ha, by intros; simp⟩
      | get id => exact ⟨_, _, .retGet s t id sl hp, by intros; simp⟩
    | copying id v sl n =>
      have hok := hi.pcs t
      rw [hp] at hok
      obtain ⟨hsl, hcap, hn, -⟩ := hok
      by_cases e : n = v.length
      · subst e; exact ⟨_, _, .endCopy s t id v sl hp, by intros; simp⟩
      · obtain ⟨-, h0 | ⟨c, hc, -⟩⟩ := hi.heap.valid id
        · dsimp only at h0; rw [← hsl] at h0; omega
        · dsimp only at hc; rw [← hsl] at hc
          exact ⟨_, _, .copyByte s t id v sl n v[n] c hp (List.getElem?_eq_getElem (by omega)) hc, by intros; simp⟩
    | storing id v old new => exact ⟨_, _, .beginAppend s t id v old new s.store hp, by intros; simp⟩
    | writing op id saved new => exact ⟨_, _, .endWrite s t op id saved new hp, by intros; simp⟩
    | finished op r =>
      cases hop : lockOf op with
      | write => exact ⟨_, _, .unlock s t op r hp hop, by intros; simp⟩
      | read => exact ⟨_, _, .runlock s t op r hp hop, by intros; simp⟩
  · have hno : ∀ t, Conc.held (MConc.absPC s.mem (s.pc t)) = none := by
      intro t
      cases e : Conc.held (MConc.absPC s.mem (s.pc t)) with
      | none => rfl
      | some op => exact absurd ⟨t, op, e⟩ hh
    have hw : s.writer = false := by
      cases e : s.writer with
      | false => rfl
      | true =>
        obtain ⟨t', ht'⟩ := hl.writer e
        obtain ⟨op, h1, -⟩ := ht'
        have := hno t'
        rw [show MConc.absPC s.mem (s.pc t') = (MConc.abs s).pc t' from rfl, h1] at this; cases this
    have hr : s.readers = 0 := by
      obtain ⟨rs, -, hlen, hm⟩ := hk.readers
      cases rs with
      | nil => exact hlen.symm
      | cons x xs =>
        obtain ⟨op, h1, -⟩ := (hm x).mp List.mem_cons_self
        have := hno x
        rw [show MConc.absPC s.mem (s.pc x) = (MConc.abs s).pc x from rfl, h1] at this; cases this
    rcases MConc.passive_of_held (hno t) with e | ⟨op, e⟩ | ⟨op, r, e⟩
    · exact absurd e ht
    · cases hop : lockOf op with
      | write => exact ⟨_, _, .lock s t op e hop hw hr, by intros; simp⟩
      | read => exact ⟨_, _, .rlock s t op e hop hw, by intros; simp⟩
    · exact ⟨_, _, .ret s t op r e, by intros; simp⟩

/-! A run for the theorems above. -/

/-- Goroutine positions with one changed. -/
def setPC (pc : Nat → MPC) (t : Nat) (p : MPC) : Nat → MPC := fun t' => if t' = t then p else pc t'

theorem at_setPC (s : MConc) (t : Nat) (p : MPC) : s.at t p = setPC s.pc t p := rfl

theorem setPC_setPC (pc : Nat → MPC) (t : Nat) (p q : MPC) : setPC (setPC pc t q) t p = setPC pc t p := by
  funext t'; unfold setPC; split <;> rfl

theorem setPC_same (pc : Nat → MPC) (t : Nat) (p : MPC) : setPC pc t p t = p := by simp [setPC]

theorem setPC_idle {pc : Nat → MPC} {t : Nat} {p : MPC} (h : pc t = p) : setPC pc t p = pc := by
  funext t'; unfold setPC; split
  · subst_vars; rfl
  · rfl

section
variable {m : Mem} {h : List Ev} {mem : Mem} {st : GoString → Slice} {pc : Nat → MPC}
  {g : List (Nat × Slice × Bytes)}

theorem run_grow (t : Nat) (id : GoString) (v spare : Bytes) (a : Nat)
    (e : MConc.Exec m h ⟨mem, st, false, 0, pc, g⟩) (hp : pc t = .idle) (hcap : (st id).cap < (st id).len + v.length)
    (ha : mem a = none) :
    MConc.Exec m (h ++ [.inv t (.append id v), .ret t []])
      ⟨fun x => if x = a then some (mem.read (st id) ++ (v ++ spare)) else mem x,
      fun k => if k = id then ⟨a, 0, (st id).len + v.length, (st id).len + v.length + spare.length⟩ else st k,
      false, 0, pc, (t, Slice.nil, []) :: g⟩ := by
  have e := e.step (.call _ t (.append id v) hp)
  simp only [at_setPC] at e
  have e := e.step (.lock _ t _ (setPC_same _ _ _) rfl rfl rfl)
  simp only [at_setPC, setPC_setPC] at e
  have e := e.step (.loadAppend _ t _ _ (setPC_same _ _ _))
  simp only [at_setPC, setPC_setPC] at e
  have e := e.step (.grow _ t _ _ _ spare a (setPC_same _ _ _) hcap ha)
  simp only [at_setPC, setPC_setPC] at e
  have e := e.step (.beginAppend _ t _ _ _ _ (fun _ => Slice.nil) (setPC_same _ _ _))
  simp only [at_setPC, setPC_setPC] at e
  have e := e.step (.endWrite _ t _ _ _ _ (setPC_same _ _ _))
  simp only [at_setPC, setPC_setPC] at e
  have e := e.step (.unlock _ t _ _ (setPC_same _ _ _) rfl)
  simp only [at_setPC, setPC_setPC] at e
  have e := e.step (.ret _ t _ _ (setPC_same _ _ _))
  simp only [at_setPC, setPC_setPC, setPC_idle hp, MConc.read_nil (sl := Slice.nil) rfl, Option.toList, List.append_nil, List.append_assoc,
    List.cons_append, List.nil_append] at e
  exact e

theorem run_get (t : Nat) (id : GoString)
    (e : MConc.Exec m h ⟨mem, st, false, 0, pc, g⟩) (hp : pc t = .idle) :
    MConc.Exec m (h ++ [.inv t (.get id), .ret t (mem.read (st id))])
      ⟨mem, st, false, 0, pc, (t, st id, mem.read (st id)) :: g⟩ := by
  have e := e.step (.call _ t (.get id) hp)
  simp only [at_setPC] at e
  have e := e.step (.rlock _ t _ (setPC_same _ _ _) rfl rfl)
  simp only [at_setPC, setPC_setPC] at e
  have e := e.step (.loadGet _ t _ (setPC_same _ _ _))
  simp only [at_setPC, setPC_setPC] at e
  have e := e.step (.retGet _ t _ _ (setPC_same _ _ _))
  simp only [at_setPC, setPC_setPC] at e
  have e := e.step (.runlock _ t _ _ (setPC_same _ _ _) rfl)
  simp only [at_setPC, setPC_setPC] at e
  have e := e.step (.ret _ t _ _ (setPC_same _ _ _))
  simp only [at_setPC, setPC_setPC, setPC_idle hp, Option.toList, List.append_nil, List.append_assoc, List.cons_append,
    List.nil_append] at e
  exact e

theorem run_begin (t : Nat) (id : GoString) (v : Bytes)
    (e : MConc.Exec m h ⟨mem, st, false, 0, pc, g⟩) (hp : pc t = .idle) (hcap : (st id).len + v.length ≤ (st id).cap) :
    ∃ h', MConc.Exec m h' ⟨mem, st, true, 0, setPC pc t (.copying id v (st id) 0), g⟩ := by
  have e := e.step (.call _ t (.append id v) hp)
  simp only [at_setPC] at e
  have e := e.step (.lock _ t _ (setPC_same _ _ _) rfl rfl rfl)
  simp only [at_setPC, setPC_setPC] at e
  have e := e.step (.loadAppend _ t _ _ (setPC_same _ _ _))
  simp only [at_setPC, setPC_setPC] at e
  have e := e.step (.beginCopy _ t _ _ _ (setPC_same _ _ _) hcap)
  simp only [at_setPC, setPC_setPC] at e
  exact ⟨_, e⟩

theorem run_byte (t : Nat) (id : GoString) (b : UInt8) (sl : Slice) (a : Bytes) (w : Bool) (r : Nat)
    (ha : mem sl.arr = some a) :
    MConc.Steps ⟨mem, st, w, r, setPC pc t (.copying id [b] sl 0), g⟩
      ⟨fun x => if x = sl.arr then some (overwrite a (sl.off + sl.len) [b]) else mem x,
       fun k => if k = id then { sl with len := sl.len + 1 } else st k, w, r, setPC pc t (.finished (.append id [b]) Slice.nil), g⟩ := by
  have e := MConc.Steps.refl (⟨mem, st, w, r, setPC pc t (.copying id [b] sl 0), g⟩ : MConc)
  have e := e.step (.copyByte _ t id [b] sl 0 b a (setPC_same _ _ _) rfl ha)
  simp only [at_setPC, setPC_setPC] at e
  have e := e.step (.endCopy _ t id [b] sl (setPC_same _ _ _))
  simp only [at_setPC, setPC_setPC] at e
  have e := e.step (.beginAppend _ t _ _ _ _ (fun _ => Slice.nil) (setPC_same _ _ _))
  simp only [at_setPC, setPC_setPC] at e
  have e := e.step (.endWrite _ t _ _ _ _ (setPC_same _ _ _))
  simp only [at_setPC, setPC_setPC] at e
  exact e
end

/-- Goroutine 1 has been given `[1, 2]` under a key, and goroutine 0 is about to write the byte 3 into the spare capacity
of the same array; afterwards the key holds `[1, 2, 3]` and goroutine 1 still has `[1, 2]`. -/
theorem C62_example : ∃ (h : List Ev) (s s' : MConc) (sl : Slice), MConc.Exec (fun _ => none) h s ∧ MConc.Steps s s' ∧
    (1, sl, [1, 2]) ∈ s.given ∧ sl.arr = 7 ∧ (s.pc 0).WritesByte 7 2 ∧ s'.mem.read sl = [1, 2] ∧
    s'.mem.read (s'.store (ascii "k")) = [1, 2, 3] := by
  have e := run_grow 0 (ascii "k") [1, 2] [0, 0] 7 (MConc.Exec.start (mem := fun _ => none)) rfl (by decide) rfl
  have e := run_get 1 (ascii "k") e rfl
  obtain ⟨_, e⟩ := run_begin 0 (ascii "k") [3] e rfl (by decide)
  refine ⟨_, _, _, ⟨7, 0, 2, 4⟩, e, run_byte 0 (ascii "k") 3 ⟨7, 0, 2, 4⟩ [1, 2, 0, 0] true 0 rfl, ?_, rfl, ?_, rfl, rfl⟩
  · exact List.mem_cons_self
  · exact ⟨ascii "k", [3], ⟨7, 0, 2, 4⟩, 0, rfl, by decide, rfl, rfl⟩

end Migp.Props
