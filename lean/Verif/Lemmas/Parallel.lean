import Verif.Lemmas.UnmarshalHeap
import Verif.Spec.Parallel
import Mathlib.Order.PiLex
import Mathlib.Data.DFinsupp.WellFounded
/-!
# Interleaved code does what it does by itself
-/
namespace Migp
open Spec HM

/-! ### The relations go on holding -/

theorem lasting_newSlice (M : Memory) : Lasting (NewSlice M) := fun _ _ _ _ k n => n.mono k

theorem lasting_variants (M : Memory) : Lasting (Variants M) :=
  fun _ _ _ _ k v => ⟨v.1.imp fun _ _ n => n.mono k, v.2⟩

theorem lasting_eq {α : Type} : Lasting (fun (_ : Memory) (x y : α) => x = y) := fun _ _ _ _ _ e => e

theorem lasting_requested (M : Memory) : Lasting (Requested M) := fun _ _ _ _ k r =>
  ⟨r.version, r.bucketID, r.blindElement.mono k, r.client, r.input.mono k, r.blind⟩

theorem lasting_finalized (M : Memory) : Lasting (Finalized M) := fun M1 M2 x y k f => by
  obtain ⟨h1, h2, h3⟩ := f
  refine ⟨h1, h2, ?_⟩
  revert h3
  cases x.metadata <;> cases y.2.1 <;> first | exact fun h => h | exact fun n => n.mono k

theorem lasting_handled (M : Memory) (bucket : Slice) : Lasting (Handled M bucket) := fun _ _ _ _ k r =>
  ⟨r.version, r.evaluatedElement.mono k, r.bucketContents.mono k, r.bucketIs⟩

theorem lasting_slowHashed (sh : SlowHasher) (M : Memory) (sl : Slice) : Lasting (SlowHashed sh M sl) :=
  fun _ _ _ _ k r => ⟨r.1.mono k, r.2.1, fun h => (r.2.2 h).mono k⟩

theorem lasting_received (M : Memory) (b : Bytes) (data : Slice) (r : ServerResponseH) :
    Lasting (fun M' (x : ServerResponseH × Option Err) (_ : Unit) => Received M b data r M' x.1 x.2) :=
  fun _ _ _ _ k x => ⟨x.noVersion,
    fun h h' => let y := x.noElement h h'; ⟨y.1, y.2.1, y.2.2.1.mono k, y.2.2.2⟩,
    fun h => let y := x.complete h; ⟨y.1, y.2.1, y.2.2.1.mono k, y.2.2.2.1, y.2.2.2.2.mono k⟩⟩

theorem _root_.Migp.Spec.LibraryCode.lasting {E : Ext} {M : Memory} {α β : Type} {m : HM α} {r : Res β}
    {R : Memory → α → β → Prop} (c : LibraryCode E M m r R) : Lasting R := by
  induction c with
  | mutate => exact lasting_variants _
  | encryptBucketEntry => exact lasting_newSlice _
  | deriveBucketEntryKey => exact lasting_newSlice _
  | serverBucketID => exact lasting_eq
  | clientBucketID => exact lasting_eq
  | request => exact lasting_requested _
  | finalize => exact lasting_finalized _
  | handleRequest => exact lasting_handled _ _
  | marshal => exact lasting_newSlice _
  | unmarshal => exact lasting_received _ _ _ _
  | encrypt => exact lasting_newSlice _
  | decryptHeader => exact lasting_eq
  | decryptBody => exact lasting_newSlice _
  | bucketHash => exact lasting_newSlice _
  | slowHash => exact lasting_slowHashed _ _ _
  | ret l _ => exact l
  | seq l _ _ _ _ => exact l
  | attempt _ ih =>
    intro M1 M2 x y k h
    cases x <;> cases y <;> first | exact h | exact ih _ _ _ _ k h
  | weaken l _ _ _ => exact l

/-- Code made of calls of the library is safe. -/
theorem _root_.Migp.Spec.LibraryCode.sim {E : Ext} {M : Memory} {α β : Type} {m : HM α} {r : Res β}
    {R : Memory → α → β → Prop} (c : LibraryCode E M m r R) : Sim M R M m r := by
  induction c with
  | mutate rules num h => exact Mutator.mutate_sim h rules num
  | encryptBucketEntry s flag hu hp hm => exact encryptBucketEntry_sim E s flag hu hp hm
  | deriveBucketEntryKey s hu hp => exact deriveKey_sim E s hu hp
  | serverBucketID s hu => exact bucketID_sim E _ _ hu
  | clientBucketID c hu => exact bucketID_sim E _ _ hu
  | request c blind hu hp => exact request_sim E c blind hu hp
  | finalize hx hr => exact finalize_sim E hx hr
  | handleRequest s store kv hr hk => exact handleRequest_sim s hr store kv hk
  | marshal hr => exact marshalBinary_sim hr
  | unmarshal r hd => exact unmarshal_sim r hd
  | encrypt enc flag hs hb => exact encrypt_sim E enc flag hs hb
  | decryptHeader enc hs hc => exact decryptHeader_sim E enc hs hc
  | decryptBody enc hs hc => exact decryptBody_sim E enc hs hc
  | bucketHash bh hb => exact bucketHash_sim E bh hb
  | slowHash sh hb => exact slowHash_sim E sh hb
  | ret _ h => exact Sim.pure (Kept.refl _) h
  | seq _ _ _ ih1 ih2 =>
    exact Sim.bind (Kept.refl _) ih1 fun M' a b k h => Sim.mono k (ih2 M' a b k h) fun _ _ _ _ h => h
  | @attempt M α β R m r _ ih =>
    refine Safe.attempt_iff.mpr (Safe.post ?_ ih)
    rintro M' x ⟨k, h⟩
    cases x <;> cases r <;> first | exact h.elim | exact ⟨k, h⟩
  | weaken _ _ h ih => exact Sim.mono (Kept.refl _) ih h

/-! ### Interleaving -/

section
variable {ι : Type} [DecidableEq ι] {α β : ι → Type}

/-- The invariant: each goroutine knows the old memory and what it has made itself, and what one of them has
made no other knows. -/
structure ParInv (M0 : Memory) (P : (t : ι) → Memory → Res (α t) → Prop) (V : ι → Memory) (s : Par ι α) : Prop where
  safe : ∀ t, Safe M0 (s.code t) (V t) (P t)
  base : ∀ t, Kept M0 (V t)
  known : ∀ t, Kept (V t) s.heap.mem
  apart : ∀ t u a, t ≠ u → M0 a = none → V t a ≠ none → V u a = none

theorem kept_upd_upd {M M' : Memory} (k : Kept M M') (a : Nat) (b : Bytes) : Kept (M.upd a b) (M'.upd a b) :=
  fun x c hx => by
    by_cases e : x = a
    · subst e; rw [Memory.upd_self] at hx ⊢; exact hx
    · rw [Memory.upd_ne _ _ e] at hx ⊢; exact k x c hx

theorem kept_upd_out {M M' : Memory} (k : Kept M M') {a : Nat} (h : M a = none) (b : Bytes) : Kept M (M'.upd a b) :=
  fun x c hx => by
    have e : x ≠ a := by rintro rfl; rw [h] at hx; cases hx
    rw [Memory.upd_ne _ _ e]; exact k x c hx

theorem ParInv.step {M0 : Memory} {P : (t : ι) → Memory → Res (α t) → Prop} {V : ι → Memory} {s s' : Par ι α}
    (i : ParInv M0 P V s) (st : Par.Step s s') : ∃ V', ParInv M0 P V' s' := by
  cases st with
  | alloc t b k hc =>
    have hn : ∀ u, V u s.heap.length = none := fun u => (i.known u).none s.heap.mem_none
    refine ⟨Function.update V t ((V t).upd s.heap.length b), fun u => ?_, fun u => ?_, fun u => ?_, fun u w a huw h0 hu => ?_⟩
    · by_cases e : u = t
      · subst e
        have := i.safe u
        rw [hc] at this
        simp only [Function.update_self]
        exact this _ (hn u)
      · simp only [Function.update_of_ne e]; exact i.safe u
    · by_cases e : u = t
      · subst e
        simp only [Function.update_self]
        exact (i.base u).trans (Kept.upd (hn u) b)
      · simp only [Function.update_of_ne e]; exact i.base u
    · dsimp only
      rw [Heap.mem_append]
      by_cases e : u = t
      · subst e
        simp only [Function.update_self]
        exact kept_upd_upd (i.known u) _ _
      · simp only [Function.update_of_ne e]
        exact kept_upd_out (i.known u) (hn u) b
    · by_cases e : u = t
      · subst e
        rw [Function.update_of_ne (Ne.symm huw)]
        rw [Function.update_self] at hu
        by_cases ea : a = s.heap.length
        · subst ea; exact hn w
        · rw [Memory.upd_ne _ _ ea] at hu; exact i.apart u w a huw h0 hu
      · rw [Function.update_of_ne e] at hu
        by_cases e' : w = t
        · subst e'
          rw [Function.update_self]
          have ea : a ≠ s.heap.length := by rintro rfl; exact hu (hn u)
          rw [Memory.upd_ne _ _ ea]; exact i.apart u w a huw h0 hu
        · rw [Function.update_of_ne e']; exact i.apart u w a huw h0 hu
  | read t a j k hc =>
    refine ⟨V, fun u => ?_, i.base, i.known, i.apart⟩
    by_cases e : u = t
    · subst e
      have := i.safe u
      rw [hc] at this
      obtain ⟨v, hv, hs⟩ := this
      simp only [Function.update_self]
      rw [Heap.byte_of_mem ((i.known u).byte hv)]
      exact hs
    · simp only [Function.update_of_ne e]; exact i.safe u
  | write t a j v k hc =>
    have hs := i.safe t
    rw [hc] at hs
    obtain ⟨x, hx, hj, hb, hs⟩ := hs
    have hm := Heap.mem_setByte (i := j) (v := v) (i.known t a x hx)
    have hne : V t a ≠ none := by rw [hx]; simp
    refine ⟨Function.update V t ((V t).upd a (x.set j v)), fun u => ?_, fun u => ?_, fun u => ?_, fun u w c huw h0 hu => ?_⟩
    · by_cases e : u = t
      · subst e
        simp only [Function.update_self]
        exact hs
      · simp only [Function.update_of_ne e]; exact i.safe u
    · by_cases e : u = t
      · subst e
        simp only [Function.update_self]
        exact kept_upd_out (i.base u) hb _
      · simp only [Function.update_of_ne e]; exact i.base u
    · dsimp only
      rw [hm]
      by_cases e : u = t
      · subst e
        simp only [Function.update_self]
        exact kept_upd_upd (i.known u) _ _
      · simp only [Function.update_of_ne e]
        exact kept_upd_out (i.known u) (i.apart t u a (Ne.symm e) hb hne) _
    · have hup : ∀ w c, Function.update V t ((V t).upd a (x.set j v)) w c ≠ none ↔ V w c ≠ none := by
        intro w c
        by_cases e : w = t
        · subst e
          rw [Function.update_self]
          by_cases ec : c = a
          · subst ec; rw [Memory.upd_self]; simp [hx]
          · rw [Memory.upd_ne _ _ ec]
        · rw [Function.update_of_ne e]
      rw [hup] at hu
      have := i.apart u w c huw h0 hu
      by_contra hc'
      exact (hup w c).mp hc' this

theorem ParInv.reaches {M0 : Memory} {P : (t : ι) → Memory → Res (α t) → Prop} {V : ι → Memory} {s s' : Par ι α}
    (i : ParInv M0 P V s) (st : Relation.ReflTransGen Par.Step s s') : ∃ V', ParInv M0 P V' s' := by
  induction st with
  | refl => exact ⟨V, i⟩
  | tail _ st ih =>
    obtain ⟨V', i'⟩ := ih
    exact i'.step st

theorem parInv_start (h0 : Heap) {P : (t : ι) → Memory → Res (α t) → Prop} {code : (t : ι) → HM (α t)}
    (hs : ∀ t, Safe h0.mem (code t) h0.mem (P t)) : ParInv h0.mem P (fun _ => h0.mem) ⟨h0, code⟩ :=
  ⟨hs, fun _ => Kept.refl _, fun _ => Kept.refl _, fun _ _ _ _ h h' => absurd h h'⟩

/-- What the next access is of, the goroutine knows. -/
theorem Safe.accesses {α : Type} {M0 M : Memory} {m : HM α} {P : Memory → Res α → Prop} (s : Safe M0 m M P) {a i : Nat}
    (h : m.Accesses a i) : M a ≠ none := by
  rcases h with ⟨k, rfl⟩ | ⟨v, k, rfl⟩
  · obtain ⟨v, hv, -⟩ := s
    intro e
    unfold Memory.byte at hv
    rw [e] at hv
    cases hv
  · obtain ⟨x, hx, -⟩ := s
    rw [hx]; simp

theorem Safe.writes {α : Type} {M0 M : Memory} {m : HM α} {P : Memory → Res α → Prop} (s : Safe M0 m M P) {a i : Nat}
    (h : m.Writes a i) : M0 a = none := by
  obtain ⟨v, k, rfl⟩ := h
  exact s.choose_spec.2.2.1

theorem ParInv.no_race {M0 : Memory} {P : (t : ι) → Memory → Res (α t) → Prop} {V : ι → Memory} {s : Par ι α}
    (i : ParInv M0 P V s) {t u : ι} (htu : t ≠ u) {a j : Nat} (hw : (s.code t).Writes a j)
    (ha : (s.code u).Accesses a j) : False :=
  (i.safe u).accesses ha (i.apart t u a htu ((i.safe t).writes hw) ((i.safe t).accesses (Or.inr hw)))

end

/-! ### Every schedule comes to an end -/

/-- The rest of the code after one access. -/
inductive HM.Next {α : Type} : HM α → HM α → Prop
  | alloc (b : Bytes) (k : Nat → HM α) (a : Nat) : Next (k a) (.alloc b k)
  | read (a i : Nat) (k : UInt8 → HM α) (v : UInt8) : Next (k v) (.read a i k)
  | write (a i : Nat) (v : UInt8) (k : HM α) : Next k (.write a i v k)

theorem HM.next_acc {α : Type} (m : HM α) : Acc HM.Next m := by
  induction m with
  | done r => exact ⟨_, fun y h => by cases h⟩
  | alloc b k ih => exact ⟨_, fun y h => by cases h; exact ih _⟩
  | read a i k ih => exact ⟨_, fun y h => by cases h; exact ih _⟩
  | write a i v k ih => exact ⟨_, fun y h => by cases h; exact ih⟩

theorem par_wf {n : Nat} {α : Fin n → Type} : WellFounded (fun s' s : Par (Fin n) α => Par.Step s s') := by
  have wf : WellFounded (Pi.Lex (· < ·) (fun {t : Fin n} => HM.Next (α := α t))) :=
    Pi.Lex.wellFounded _ fun t => ⟨HM.next_acc⟩
  refine Subrelation.wf ?_ (InvImage.wf Par.code wf)
  intro s' s st
  have up : ∀ (t : Fin n) (m : HM (α t)), HM.Next m (s.code t) →
      Pi.Lex (· < ·) (fun {t : Fin n} => HM.Next (α := α t)) (Function.update s.code t m) s.code := fun t m h =>
    ⟨t, fun j hj => Function.update_of_ne (ne_of_lt hj) _ _, by rw [Function.update_self]; exact h⟩
  cases st with
  | alloc t b k hc => exact up t _ (by rw [hc]; exact .alloc b k _)
  | read t a j k hc => exact up t _ (by rw [hc]; exact .read a j k _)
  | write t a j v k hc => exact up t _ (by rw [hc]; exact .write a j v k)

end Migp
