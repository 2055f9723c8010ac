import Verif.Lemmas.Parallel
import Verif.Props.Memory
/-!
# C68: calls in several goroutines, on shared memory
-/
namespace Migp.Props
open Migp.Spec Migp.HM Migp.Example

section
variable {ι : Type} [DecidableEq ι] {α β : ι → Type}

theorem par_inv {E : Ext} {h : Heap} {code : (t : ι) → HM (α t)} {outcome : (t : ι) → Res (β t)}
    {returns : (t : ι) → Memory → α t → β t → Prop} (calls : ∀ t, LibraryCode E h.mem (code t) (outcome t) (returns t))
    {s : Par ι α} (run : Par.Reaches h code s) :
    ∃ V, ParInv h.mem (fun t M x => Kept h.mem M ∧ Agree x (outcome t) (returns t M)) V s :=
  (parInv_start h fun t => (calls t).sim).reaches run

/-- C68: goroutines that call the library, on arguments in memory they share, have no data race: never is one
about to write to a byte that another is about to write to or read. -/
theorem C68_no_data_race (E : Ext) (h : Heap) (code : (t : ι) → HM (α t)) (outcome : (t : ι) → Res (β t))
    (returns : (t : ι) → Memory → α t → β t → Prop) (calls : ∀ t, LibraryCode E h.mem (code t) (outcome t) (returns t))
    (s : Par ι α) (run : Par.Reaches h code s) (t u : ι) (htu : t ≠ u) (arr i : Nat) :
    ¬ ((s.code t).Writes arr i ∧ (s.code u).Accesses arr i) := by
  obtain ⟨V, inv⟩ := par_inv calls run
  exact fun ⟨hw, ha⟩ => inv.no_race htu hw ha

/-- C68: at no time is anything in the memory they share other than what it was, and every byte accessed exists. -/
theorem C68_shared_memory_kept (E : Ext) (h : Heap) (code : (t : ι) → HM (α t)) (outcome : (t : ι) → Res (β t))
    (returns : (t : ι) → Memory → α t → β t → Prop) (calls : ∀ t, LibraryCode E h.mem (code t) (outcome t) (returns t))
    (s : Par ι α) (run : Par.Reaches h code s) (t : ι) :
    Kept h.mem s.heap.mem ∧ (∀ arr i, (s.code t).Writes arr i → h.mem arr = none) ∧
      ∀ arr i, (s.code t).Accesses arr i → s.heap.mem.byte arr i ≠ none := by
  obtain ⟨V, inv⟩ := par_inv calls run
  refine ⟨(inv.base t).trans (inv.known t), fun arr i hw => (inv.safe t).writes hw, fun arr i ha => ?_⟩
  have sf := inv.safe t
  rcases ha with ⟨k, e⟩ | ⟨v, k, e⟩
  · rw [e] at sf
    obtain ⟨v, hv, -⟩ := sf
    rw [(inv.known t).byte hv]; simp
  · rw [e] at sf
    obtain ⟨x, hx, hi, -⟩ := sf
    unfold Memory.byte
    rw [inv.known t _ _ hx]
    simp [hi]

/-- C68: a goroutine that has finished has the outcome it would have had by itself, whatever the others have done
and go on doing. -/
theorem C68_outcome (E : Ext) (h : Heap) (code : (t : ι) → HM (α t)) (outcome : (t : ι) → Res (β t))
    (returns : (t : ι) → Memory → α t → β t → Prop) (calls : ∀ t, LibraryCode E h.mem (code t) (outcome t) (returns t))
    (s : Par ι α) (run : Par.Reaches h code s) (t : ι) (x : Res (α t)) (hx : s.code t = .done x) :
    Agree x (outcome t) (returns t s.heap.mem) := by
  obtain ⟨V, inv⟩ := par_inv calls run
  have sf := inv.safe t
  rw [hx] at sf
  obtain ⟨-, ag⟩ := sf
  have l := (calls t).lasting
  revert ag
  cases x <;> cases outcome t <;> first | exact fun h => h | exact fun h => l _ _ _ _ (inv.known t) h

/-- C68: what different goroutines return does not overlap: each has memory of its own, which no other has, and
its results are in the memory they shared or in its own. -/
theorem C68_results_apart (E : Ext) (h : Heap) (code : (t : ι) → HM (α t)) (outcome : (t : ι) → Res (β t))
    (returns : (t : ι) → Memory → α t → β t → Prop) (calls : ∀ t, LibraryCode E h.mem (code t) (outcome t) (returns t))
    (s : Par ι α) (run : Par.Reaches h code s) :
    ∃ own : ι → Memory, (∀ t, Kept h.mem (own t) ∧ Kept (own t) s.heap.mem) ∧
      (∀ t u, t ≠ u → ∀ arr, h.mem arr = none → ¬ (own t arr ≠ none ∧ own u arr ≠ none)) ∧
      ∀ t x, s.code t = .done x → Agree x (outcome t) (returns t (own t)) := by
  obtain ⟨V, inv⟩ := par_inv calls run
  refine ⟨V, fun t => ⟨inv.base t, inv.known t⟩, fun t u htu arr h0 ⟨h1, h2⟩ => h2 (inv.apart t u arr htu h0 h1),
    fun t x hx => ?_⟩
  have sf := inv.safe t
  rw [hx] at sf
  exact sf.2

/-- C68: while some goroutine has not finished, there is a step to take. -/
theorem C68_progress (s : Par ι α) (t : ι) (ht : ∀ x, s.code t ≠ .done x) : ∃ s', Par.Step s s' := by
  cases hc : s.code t with
  | done x => exact absurd hc (ht x)
  | alloc b k => exact ⟨_, .alloc s t b k hc⟩
  | read a i k => exact ⟨_, .read s t a i k hc⟩
  | write a i v k => exact ⟨_, .write s t a i v k hc⟩

end

/-- C68: and for a finite number of goroutines, every schedule comes to an end. -/
theorem C68_termination {n : Nat} {α : Fin n → Type} (s : Nat → Par (Fin n) α) : ¬ ∀ i, Par.Step (s i) (s (i + 1)) :=
  fun h => (wellFounded_iff_isEmpty_descending_chain.mp par_wf).false ⟨s, h⟩

/-- C68: so from wherever they have got to they all finish. -/
theorem C68_completion {n : Nat} {α : Fin n → Type} (s : Par (Fin n) α) :
    ∃ s', Relation.ReflTransGen Par.Step s s' ∧ ∀ t, ∃ x, s'.code t = .done x := by
  induction s using par_wf.induction with
  | h s ih =>
    by_cases hd : ∀ t, ∃ x, s.code t = .done x
    · exact ⟨s, .refl, hd⟩
    · obtain ⟨t, ht⟩ := not_forall.mp hd
      obtain ⟨s1, h1⟩ := C68_progress s t (fun x hx => ht ⟨x, hx⟩)
      obtain ⟨s2, h2, h3⟩ := ih s1 h1
      exact ⟨s2, .head h1 h2, h3⟩

/-- Two goroutines on the same line: one encrypts an entry with the whole line as its metadata, the other encrypts
the line under the password and decrypts the result. -/
def exCode : Fin 2 → HM Slice
  | 0 => server.encryptBucketEntryH ext ⟨0, 0, 3, 3⟩ ⟨0, 4, 7, 10⟩ 1 ⟨0, 0, 11, 14⟩
  | 1 => BucketEncryptor.encryptH ext .hkdfSHA256 ⟨0, 4, 7, 10⟩ 1 ⟨0, 0, 11, 14⟩ >>=
      fun ct => BucketEncryptor.decryptBodyH ext .hkdfSHA256 ⟨0, 4, 7, 10⟩ ct

def exOutcome : Fin 2 → Res Bytes
  | 0 => server.encryptBucketEntry ext (ascii "bob") (ascii "hunter2") 1 (ascii "bob:hunter2")
  | 1 => BucketEncryptor.encrypt ext .hkdfSHA256 (ascii "hunter2") 1 (ascii "bob:hunter2") >>=
      fun ct => BucketEncryptor.decryptBody ext .hkdfSHA256 (ascii "hunter2") ct

theorem ex_line : Shows exHeap.mem ⟨0, 0, 11, 14⟩ (ascii "bob:hunter2") := by unfold Shows; decide

theorem ex_calls : ∀ t, LibraryCode ext exHeap.mem (exCode t) (exOutcome t) (NewSlice exHeap.mem)
  | 0 => .encryptBucketEntry server 1 ex_user ex_pass ex_line
  | 1 => .seq (lasting_newSlice _) (.encrypt .hkdfSHA256 1 ex_pass ex_line) fun _ _ _ k n =>
      .weaken (lasting_newSlice _) (.decryptBody .hkdfSHA256 (ex_pass.mono k) n.shows)
        fun _ _ _ _ n' => n'.weaken k

theorem ex_outcomes : ∃ b0 b1, exOutcome 0 = .ok b0 ∧ exOutcome 1 = .ok b1 := by
  have h0 := encryptBucketEntry_ok newServer_eq (ascii "bob") (ascii "hunter2") 1 (ascii "bob:hunter2") (by decide)
    (by decide) (by decide) (by exact example_tweak) (by decide)
  have h1 := decryptBody_ok ext .hkdfSHA256 (ascii "hunter2") (entryParts ext (ascii "hunter2") 1 (ascii "bob:hunter2"))
    (by rw [entryParts_length _ _ _ _ (by decide)]; decide)
  exact ⟨_, _, h0, by unfold exOutcome; rw [encrypt_ok ext _ _ _ _ (by decide)]; exact h1⟩

/-- C68: both finish, and what they return are the expected bytes, in two arrays. -/
example : ∃ s x y b0 b1, Par.Reaches exHeap exCode s ∧ s.code 0 = .done (.ok x) ∧ s.code 1 = .done (.ok y) ∧
    exOutcome 0 = .ok b0 ∧ Shows s.heap.mem x b0 ∧ exOutcome 1 = .ok b1 ∧ Shows s.heap.mem y b1 ∧ x.arr ≠ y.arr := by
  obtain ⟨s, run, hd⟩ := C68_completion ⟨exHeap, exCode⟩
  obtain ⟨b0, b1, e0, e1⟩ := ex_outcomes
  obtain ⟨x, hx⟩ := hd 0
  obtain ⟨y, hy⟩ := hd 1
  have h0 := C68_outcome ext exHeap exCode exOutcome _ ex_calls s run 0 _ hx
  have h1 := C68_outcome ext exHeap exCode exOutcome _ ex_calls s run 1 _ hy
  obtain ⟨own, -, hap, ha⟩ := C68_results_apart ext exHeap exCode exOutcome _ ex_calls s run
  have a0 := ha 0 _ hx
  have a1 := ha 1 _ hy
  rw [e0] at h0 a0
  rw [e1] at h1 a1
  cases x <;> cases y
  all_goals first | exact h0.elim | exact h1.elim | skip
  rename_i x y
  exact ⟨s, x, y, b0, b1, run, hx, hy, e0, h0.shows, e1, h1.shows, fun e =>
    hap 0 1 (by decide) x.arr a0.1.1 ⟨a0.1.2, by rw [e]; exact a1.1.2⟩⟩

end Migp.Props
