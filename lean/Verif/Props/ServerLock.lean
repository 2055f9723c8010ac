import Verif.Lemmas.ServerLock
import Verif.Props.ServerConc
/-!
# C74: the lock of the store is Go's `sync.RWMutex`
-/
namespace Migp.Props
open Migp.Spec Migp.Example

section
variable {ι : Type} [DecidableEq ι]

theorem lock_start (E : Ext) (s : Server) (h : Heap) (jobs : ι → JobH) (jobsV : ι → JobV)
    (hj : ∀ t, JobShows h.mem (jobs t) (jobsV t)) : GInv E s jobsV (SrvL.start E s h jobs) (Srv.start E s h jobs) := by
  have none : ∀ x, LockPc.idle ≠ x → Cnt (fun _ : ι => LockPc.idle = x) 0 := fun x hx =>
    ⟨[], List.nodup_nil, rfl, fun u => ⟨fun h => (by cases h), fun h => (hx h).elim⟩⟩
  exact ⟨rfl, ⟨rfl, rfl, rfl⟩, ⟨_, SInv.start E s h jobs jobsV hj⟩, fun _ => trivial, .free, 0, 0, 0, nofun,
    fun u hu => hu.elim, none _ nofun, none _ nofun, none _ nofun, rfl, rfl, rfl, rfl, rfl, rfl, rfl, rfl⟩

/-- The server whose lock is taken in one step, along a run. -/
theorem lock_chain (hf : Few ι) {E : Ext} {s : Server} {h : Heap} {jobs : ι → JobH} {jobsV : ι → JobV} {run : Nat → SrvL ι}
    (r : IsRunL E s h jobs run) (hj : ∀ t, JobShows h.mem (jobs t) (jobsV t)) :
    ∃ base : Nat → Srv ι, IsRun E s h jobs base ∧ ∀ k, GInv E s jobsV (run k) (base k) := by
  have next : ∀ k (b : { b : Srv ι // GInv E s jobsV (run k) b }), ∃ b' : { b : Srv ι // GInv E s jobsV (run (k + 1)) b },
      Srv.Step b.1 b'.1 ∨ b'.1 = b.1 := by
    rintro k ⟨b, i⟩
    rcases r.step k with st | e
    · obtain ⟨b', i', l⟩ := i.step hf st
      exact ⟨⟨b', i'⟩, l⟩
    · exact ⟨⟨b, by rw [e]; exact i⟩, Or.inr rfl⟩
  have i0 := lock_start E s h jobs jobsV hj
  rw [← r.start] at i0
  let chain : (k : Nat) → { b : Srv ι // GInv E s jobsV (run k) b } := fun k =>
    Nat.rec ⟨_, i0⟩ (fun k b => Classical.choose (next k b)) k
  exact ⟨fun k => (chain k).1, ⟨rfl, fun k => Classical.choose_spec (next k (chain k))⟩, fun k => (chain k).2⟩

theorem lock_inv (hf : Few ι) {E : Ext} {s : Server} {h : Heap} {jobs : ι → JobH} {jobsV : ι → JobV} {run : Nat → SrvL ι}
    (r : IsRunL E s h jobs run) (hj : ∀ t, JobShows h.mem (jobs t) (jobsV t)) (k : Nat) : ∃ b, GInv E s jobsV (run k) b := by
  obtain ⟨base, -, hi⟩ := lock_chain hf r hj
  exact ⟨base k, hi k⟩

/-- While some goroutine has not ended, one can make a step. -/
theorem lock_progress {E : Ext} {s : Server} {jobsV : ι → JobV} {c : SrvL ι} {b : Srv ι} (i : GInv E s jobsV c b)
    (t : ι) (ht : ∀ x, ¬ c.Ended t x) : ∃ c', SrvL.Step c c' := by
  suffices hh : ∃ c', SrvL.Act c c' by
    obtain ⟨c', h⟩ := hh
    exact ⟨c', i.fatal, h⟩
  obtain ⟨ph, Q, S, W, li⟩ := i.lock
  obtain ⟨g, hi⟩ := i.server
  have ok := li.ok
  -- goroutines in a method that does not wait
  have leave : ∀ u, c.pc u = .leaving → ∃ c', SrvL.Act c c' := fun u hu => by
    by_cases h0 : c.lock.readerWait - 1 = 0
    · exact ⟨_, .leaveLast c u hu h0⟩
    · exact ⟨_, .leave c u hu h0⟩
  have release : ∀ u n, c.pc u = .releasing n → ∃ c', SrvL.Act c c' := fun u n hu => by
    cases n with
    | zero => exact ⟨_, .unlockW c u hu⟩
    | succ n => exact ⟨_, .release c u n hu⟩
  have announced : ∀ u r, c.pc u = .announced r → ∃ c', SrvL.Act c c' := fun u r hu => by
    have hw := i.waits u
    rw [hu] at hw
    obtain ⟨k, hk⟩ := hw
    by_cases hr : r = 0
    · subst hr; exact ⟨_, .alone c u k hu hk⟩
    · by_cases h0 : c.lock.readerWait + r = 0
      · exact ⟨_, .awaitNone c u r k hu hk hr h0⟩
      · exact ⟨_, .await c u r hu hr h0⟩
  have sleeper : c.lock.readerSem ≠ 0 → Q ≠ 0 → ∃ c', SrvL.Act c c' := fun hs hq => by
    obtain ⟨u, hu⟩ := li.queue.some hq
    have hw := i.waits u
    rw [hu] at hw
    obtain ⟨k, hk⟩ := hw
    exact ⟨_, .acquireR c u k hu hk hs⟩
  -- goroutines that hold the lock
  have held : ∀ u, (g.view u).mode ≠ .free → ∃ c', SrvL.Act c c' := fun u hm => by
    have hs := hi.safe u
    have hw := i.waits u
    rw [← i.same.code] at hs
    cases hp : c.pc u with
    | hasW => exact ⟨_, .announce c u hp⟩
    | announced r => exact announced u r hp
    | sleepW => rw [hp] at hw; obtain ⟨k, hk⟩ := hw; rw [hk] at hs; exact absurd hs.1 hm
    | releasing n => exact release u n hp
    | sleepR => rw [hp] at hw; obtain ⟨k, hk⟩ := hw; rw [hk] at hs; exact absurd hs.1 hm
    | leaving => exact leave u hp
    | waking => exact ⟨_, .wake c u hp⟩
    | idle =>
      cases hc : c.code u with
      | done x => rw [hc] at hs; exact absurd hs.1 hm
      | alloc b k => exact ⟨_, .alloc c u b k hp hc⟩
      | grow n k => exact ⟨_, .grow c u n k (List.replicate n 0) hp hc (by simp)⟩
      | read a i k => exact ⟨_, .read c u a i k hp hc⟩
      | write a i v k => exact ⟨_, .write c u a i v k hp hc⟩
      | lock k => rw [hc] at hs; exact absurd hs.1 hm
      | unlock k =>
        by_cases hlt : c.lock.readerCount + maxReaders < maxReaders
        · exact ⟨_, .unlock c u k hp hc hlt⟩
        · exact ⟨_, .unlockFatal c u k hp hc (by omega)⟩
      | rlock k => rw [hc] at hs; exact absurd hs.1 hm
      | runlock k =>
        by_cases hge : 0 ≤ c.lock.readerCount - 1
        · exact ⟨_, .runlock c u k hp hc hge⟩
        · by_cases h1 : c.lock.readerCount - 1 + 1 = 0 ∨ c.lock.readerCount - 1 + 1 = -maxReaders
          · exact ⟨_, .runlockFatal c u k hp hc (by omega) h1⟩
          · exact ⟨_, .runlockSlow c u k hp hc (by omega) (fun h => h1 (.inl h)) fun h => h1 (.inr h)⟩
      | mapGet id k => exact ⟨_, .mapGet c u id k hp hc⟩
      | mapSet id sl k => exact ⟨_, .mapSet c u id sl k hp hc⟩
  have reader : b.readers ≠ 0 → ∃ c', SrvL.Act c c' := fun hr => by
    have h1 : Cnt (fun u => (g.view u).mode = .reading) b.readers := hi.lock.readers
    obtain ⟨u, hu⟩ := h1.some hr
    exact held u (by rw [hu]; nofun)
  -- those that have the inner mutex
  have other : ph ≠ .free → ∃ c', SrvL.Act c c' := fun hne => by
    cases ph with
    | free => exact (hne rfl).elim
    | hasW u => exact ⟨_, .announce c u (li.at_ u _ rfl)⟩
    | announced u r => exact announced u r (li.at_ u _ rfl)
    | releasing u n => exact release u n (li.at_ u _ rfl)
    | crit =>
      obtain ⟨u, hu⟩ := hi.lock.writer.mp ok.2.1
      exact held u (by intro e; rw [e] at hu; cases hu)
    | asleep u =>
      have hp := li.at_ u _ rfl
      have hw := i.waits u
      rw [hp] at hw
      obtain ⟨k, hk⟩ := hw
      dsimp only [Phase.Ok] at ok
      by_cases hs : c.lock.writerSem = 0
      · by_cases hW : W = 0
        · have h0 : c.lock.readerWait ≠ 0 := fun h0 => by
            rw [if_pos h0] at ok
            omega
          by_cases hA : b.readers = 0
          · by_cases hT : c.lock.readerSem = 0
            · obtain ⟨v, hv⟩ := li.leaving.some (n := S) (by omega)
              exact leave v hv
            · exact sleeper hT (by omega)
          · exact reader hA
        · obtain ⟨v, hv⟩ := li.waking.some hW
          exact ⟨_, .wake c v hv⟩
      · exact ⟨_, .acquireW c u k hp hk hs⟩
  have hw := i.waits t
  cases hp : c.pc t with
  | hasW => exact ⟨_, .announce c t hp⟩
  | announced r => exact announced t r hp
  | sleepW =>
    refine other fun e => ?_
    have := li.only t (by rw [hp]; trivial)
    rw [e] at this; cases this
  | releasing n => exact release t n hp
  | sleepR =>
    by_cases hT : c.lock.readerSem = 0
    · refine other fun e => ?_
      subst e
      have := li.queue.pos hp
      dsimp only [Phase.Ok] at ok
      omega
    · exact sleeper hT (li.queue.pos hp)
  | leaving => exact leave t hp
  | waking => exact ⟨_, .wake c t hp⟩
  | idle =>
    by_cases hm : (g.view t).mode = .free
    · have hs := hi.safe t
      rw [← i.same.code] at hs
      cases hc : c.code t with
      | done x => exact (ht x ⟨hc, hp⟩).elim
      | alloc b k => exact ⟨_, .alloc c t b k hp hc⟩
      | grow n k => exact ⟨_, .grow c t n k (List.replicate n 0) hp hc (by simp)⟩
      | read a i k => exact ⟨_, .read c t a i k hp hc⟩
      | write a i v k => exact ⟨_, .write c t a i v k hp hc⟩
      | lock k =>
        by_cases e : ph = .free
        · subst e
          exact ⟨_, .lockW c t k hp hc ok.1⟩
        · exact other e
      | unlock k => rw [hc] at hs; rw [hs.1] at hm; cases hm
      | rlock k =>
        by_cases hge : 0 ≤ c.lock.readerCount + 1
        · exact ⟨_, .rlock c t k hp hc hge⟩
        · exact ⟨_, .rlockWait c t k hp hc (by omega)⟩
      | runlock k => rw [hc] at hs; rw [hs.1] at hm; cases hm
      | mapGet id k => exact ⟨_, .mapGet c t id k hp hc⟩
      | mapSet id sl k => exact ⟨_, .mapSet c t id sl k hp hc⟩
    · exact held t hm

/-- C74: whatever goroutines with Go's lock do, they could have done it with a lock that is taken in one step, so that
everything C71 says is so here, too. -/
theorem C74_same_runs (hf : Few ι) (E : Ext) (s : Server) (h : Heap) (jobs : ι → JobH) (jobsV : ι → JobV)
    (hj : ∀ t, JobShows h.mem (jobs t) (jobsV t)) (run : Nat → SrvL ι) (r : IsRunL E s h jobs run) :
    ∃ base : Nat → Srv ι, IsRun E s h jobs base ∧ ∀ k, SameServer (run k) (base k) := by
  obtain ⟨base, hr, hi⟩ := lock_chain hf r hj
  exact ⟨base, hr, fun k => (hi k).same⟩

/-- C74: the lock never ends the program, and its counters, which are of type int32, do not overflow. -/
theorem C74_no_fatal (hf : Few ι) (E : Ext) (s : Server) (h : Heap) (jobs : ι → JobH) (jobsV : ι → JobV)
    (hj : ∀ t, JobShows h.mem (jobs t) (jobsV t)) (run : Nat → SrvL ι) (r : IsRunL E s h jobs run) (k : Nat) :
    (run k).fatal = false ∧ -2 ^ 31 ≤ (run k).lock.readerCount ∧ (run k).lock.readerCount < 2 ^ 31 ∧
      -2 ^ 31 ≤ (run k).lock.readerWait ∧ (run k).lock.readerWait < 2 ^ 31 := by
  obtain ⟨b, i⟩ := lock_inv hf r hj k
  obtain ⟨ph, Q, S, W, li⟩ := i.lock
  refine ⟨i.fatal, ?_⟩
  have ok := li.ok
  have ht := i.total hf li.queue
  have hmax : maxReaders = 2 ^ 30 := rfl
  cases ph <;> dsimp only [Phase.Ok] at ok <;> omega

/-- C74: no deadlock, although readers wait when a writer does: while some goroutine has not ended, one of them can make a
step. -/
theorem C74_progress (hf : Few ι) (E : Ext) (s : Server) (h : Heap) (jobs : ι → JobH) (jobsV : ι → JobV)
    (hj : ∀ t, JobShows h.mem (jobs t) (jobsV t)) (run : Nat → SrvL ι) (r : IsRunL E s h jobs run) (k : Nat) (t : ι)
    (ht : ∀ x, ¬ (run k).Ended t x) : ∃ c', SrvL.Step (run k) c' := by
  obtain ⟨b, i⟩ := lock_inv hf r hj k
  exact lock_progress i t ht

/-- C74: never is a goroutine about to write to a byte that another is about to write to or read, nor to change the map
of the store while another is about to look at it or to change it. -/
theorem C74_no_data_race (hf : Few ι) (E : Ext) (s : Server) (h : Heap) (jobs : ι → JobH) (jobsV : ι → JobV)
    (hj : ∀ t, JobShows h.mem (jobs t) (jobsV t)) (run : Nat → SrvL ι) (r : IsRunL E s h jobs run) (k : Nat) (t u : ι)
    (htu : t ≠ u) :
    (∀ arr i, ¬ (((run k).code t).Writes arr i ∧ ((run k).code u).Accesses arr i)) ∧
      ¬ (((run k).code t).SetsMap ∧ ((run k).code u).UsesMap) := by
  obtain ⟨base, hr, hi⟩ := C74_same_runs hf E s h jobs jobsV hj run r
  rw [(hi k).code]
  exact C71_no_data_race E s h jobs jobsV hj base hr k t u htu

/-- C74: when a goroutine has loaded its records, and no other loads any, every request that is answered from then on
gets the reply of the library on the store with these records. -/
theorem C74_serving (hf : Few ι) (E : Ext) (s : Server) (h : Heap) (jobs : ι → JobH) (jobsV : ι → JobV)
    (hj : ∀ t, JobShows h.mem (jobs t) (jobsV t)) (run : Nat → SrvL ι) (r : IsRunL E s h jobs run) (t : ι) (rs : List Record)
    (ht : jobsV t = .load rs) (others : ∀ u, u ≠ t → ∀ rs, jobsV u ≠ .load rs) (j n m : Nat)
    (hd : (run j).Ended t (.ok (.loaded n m))) (u : ι) (request : ClientRequest) (hu : jobsV u = .reply request)
    (hb : ∀ i ≤ j, (run i).code u = (run 0).code u) (k : Nat) (hjk : j ≤ k) (body : Bytes)
    (hr : (run k).Ended u (.ok (.replied body))) :
    replyOf s (afterLoading E s rs).get request = .ok body := by
  obtain ⟨base, hbase, hi⟩ := C74_same_runs hf E s h jobs jobsV hj run r
  refine C71_serving E s h jobs jobsV hj base hbase t rs ht others j n m ?_ u request hu ?_ k hjk body ?_
  · rw [← (hi j).code]; exact hd.1
  · intro i hij
    rw [← (hi i).code, ← (hi 0).code]; exact hb i hij
  · rw [← (hi k).code]; exact hr.1

end

theorem few_fin {n : Nat} (hn : n < 2 ^ 30) : Few (Fin n) := fun L hL => by
  have := hL.length_le_card
  rw [Fintype.card_fin] at this
  omega

/-- How many steps of the method a goroutine has still to make at most. -/
def _root_.Migp.LockPc.rank : LockPc → Nat
  | .idle => 3
  | .hasW => 2
  | .announced _ => 1
  | .sleepW => 0
  | .sleepR => 0
  | .releasing n => 4 + n
  | .leaving => 5
  | .waking => 4

theorem srvL_wf {n : Nat} : WellFounded (fun s' s : SrvL (Fin n) => SrvL.Step s s') := by
  have fatal : ∀ s : SrvL (Fin n), s.fatal = true → Acc (fun s' s : SrvL (Fin n) => SrvL.Step s s') s := fun s hs =>
    ⟨_, fun s' h => by have := h.1; rw [hs] at this; cases this⟩
  have wf : WellFounded (Pi.Lex (· < ·) (fun {_ : Fin n} => Prod.Lex (SM.Next (α := JobOut)) (· < · : Nat → Nat → Prop))) :=
    Pi.Lex.wellFounded _ fun _ => (Prod.lex ⟨_, SM.next_wf⟩ ⟨_, Nat.lt_wfRel.wf⟩).wf
  have all : ∀ x : Fin n → SM JobOut × Nat, ∀ s : SrvL (Fin n), (fun t => (s.code t, (s.pc t).rank)) = x →
      Acc (fun s' s : SrvL (Fin n) => SrvL.Step s s') s := by
    intro x
    induction x using wf.induction with
    | h x ih =>
      rintro s rfl
      refine ⟨_, fun s' h => ?_⟩
      have code : ∀ (t : Fin n) (m : SM JobOut) (pc' : Fin n → LockPc) (s' : SrvL (Fin n)), SM.Next m (s.code t) →
          s'.code = Function.update s.code t m → (∀ u, u ≠ t → s'.pc u = s.pc u) →
          Acc (fun s' s : SrvL (Fin n) => SrvL.Step s s') s' := fun t m pc' s' h1 h2 h3 => by
        refine ih _ ⟨t, fun j hj => ?_, ?_⟩ s' rfl
        · rw [h2, Function.update_of_ne (ne_of_lt hj), h3 j (ne_of_lt hj)]
        · rw [h2, Function.update_self]; exact .left _ _ h1
      have pc : ∀ (t : Fin n) (p : LockPc) (s' : SrvL (Fin n)), p.rank < (s.pc t).rank → s'.code = s.code →
          s'.pc = Function.update s.pc t p → Acc (fun s' s : SrvL (Fin n) => SrvL.Step s s') s' := fun t p s' h1 h2 h3 => by
        refine ih _ ⟨t, fun j hj => ?_, ?_⟩ s' rfl
        · rw [h2, h3, Function.update_of_ne (ne_of_lt hj)]
        · rw [h2, h3, Function.update_self]; exact .right _ h1
      have up : ∀ (t : Fin n) (p : LockPc) u, u ≠ t → Function.update s.pc t p u = s.pc u := fun t p u e =>
        Function.update_of_ne e _ _
      cases h.2 with
      | alloc t b k hp hc => exact code t _ s.pc _ (by rw [hc]; exact .alloc b k _) rfl fun _ _ => rfl
      | grow t n k x hp hc => exact code t _ s.pc _ (by rw [hc]; exact .grow n k _ _) rfl fun _ _ => rfl
      | read t a j k hp hc => exact code t _ s.pc _ (by rw [hc]; exact .read a j k _) rfl fun _ _ => rfl
      | write t a j v k hp hc => exact code t _ s.pc _ (by rw [hc]; exact .write a j v k) rfl fun _ _ => rfl
      | mapGet t id k hp hc => exact code t _ s.pc _ (by rw [hc]; exact .mapGet id k _) rfl fun _ _ => rfl
      | mapSet t id sl k hp hc => exact code t _ s.pc _ (by rw [hc]; exact .mapSet id sl k) rfl fun _ _ => rfl
      | lockW t k hp hc => exact pc t .hasW _ (by rw [hp]; decide) rfl rfl
      | announce t hp => exact pc t (.announced _) _ (by rw [hp]; show 1 < 2; decide) rfl rfl
      | alone t k hp hc => exact code t _ s.pc _ (by rw [hc]; exact .lock k) rfl (up t _)
      | awaitNone t r k hp hc => exact code t _ s.pc _ (by rw [hc]; exact .lock k) rfl (up t _)
      | await t r hp => exact pc t .sleepW _ (by rw [hp]; show 0 < 1; decide) rfl rfl
      | acquireW t k hp hc => exact code t _ s.pc _ (by rw [hc]; exact .lock k) rfl (up t _)
      | unlock t k hp hc => exact code t _ s.pc _ (by rw [hc]; exact .unlock k) rfl (up t _)
      | unlockFatal t k hp hc => exact fatal _ rfl
      | release t n hp => exact pc t (.releasing n) _ (by rw [hp]; show 4 + n < 4 + (n + 1); omega) rfl rfl
      | unlockW t hp => exact pc t .idle _ (by rw [hp]; decide) rfl rfl
      | rlock t k hp hc => exact code t _ s.pc _ (by rw [hc]; exact .rlock k) rfl fun _ _ => rfl
      | rlockWait t k hp hc => exact pc t .sleepR _ (by rw [hp]; decide) rfl rfl
      | acquireR t k hp hc => exact code t _ s.pc _ (by rw [hc]; exact .rlock k) rfl (up t _)
      | runlock t k hp hc => exact code t _ s.pc _ (by rw [hc]; exact .runlock k) rfl fun _ _ => rfl
      | runlockSlow t k hp hc => exact code t _ s.pc _ (by rw [hc]; exact .runlock k) rfl (up t _)
      | runlockFatal t k hp hc => exact fatal _ rfl
      | leave t hp => exact pc t .idle _ (by rw [hp]; decide) rfl rfl
      | leaveLast t hp => exact pc t .waking _ (by rw [hp]; decide) rfl rfl
      | wake t hp => exact pc t .idle _ (by rw [hp]; decide) rfl rfl
  exact ⟨fun s => all _ s rfl⟩

/-- C74: any finite number of goroutines comes to an end, however they are scheduled. -/
theorem C74_termination {n : Nat} (run : Nat → SrvL (Fin n)) : ¬ ∀ i, SrvL.Step (run i) (run (i + 1)) :=
  fun h => (wellFounded_iff_isEmpty_descending_chain.mp srvL_wf).false ⟨run, h⟩

/-- C74: and when no step is left to be made, all of them have ended. -/
theorem C74_ends {n : Nat} (hn : n < 2 ^ 30) (E : Ext) (s : Server) (h : Heap) (jobs : Fin n → JobH) (jobsV : Fin n → JobV)
    (hj : ∀ t, JobShows h.mem (jobs t) (jobsV t)) (run : Nat → SrvL (Fin n)) (r : IsRunL E s h jobs run) (k : Nat)
    (hk : ¬ ∃ c', SrvL.Step (run k) c') (t : Fin n) : ∃ x, (run k).Ended t x := by
  by_contra hx
  exact hk (C74_progress (few_fin hn) E s h jobs jobsV hj run r k t fun x hd => hx ⟨x, hd⟩)

theorem lock_completion {n : Nat} (hf : Few (Fin n)) {E : Ext} {s : Server} {jobsV : Fin n → JobV} (c : SrvL (Fin n)) :
    ∀ b, GInv E s jobsV c b →
    ∃ (run : Nat → SrvL (Fin n)) (k : Nat), run 0 = c ∧ (∀ i, SrvL.Step (run i) (run (i + 1)) ∨ run (i + 1) = run i) ∧
      ∀ t, ∃ x, (run k).Ended t x := by
  induction c using srvL_wf.induction with
  | h c ih =>
    intro b i
    by_cases hd : ∀ t, ∃ x, c.Ended t x
    · exact ⟨fun _ => c, 0, rfl, fun _ => Or.inr rfl, hd⟩
    · obtain ⟨t, ht⟩ := not_forall.mp hd
      obtain ⟨c1, h1⟩ := lock_progress i t (fun x hx => ht ⟨x, hx⟩)
      obtain ⟨b', i', -⟩ := i.step hf h1
      obtain ⟨run, k, h0, hs, hk⟩ := ih c1 h1 b' i'
      refine ⟨fun n => match n with | 0 => c | n + 1 => run n, k + 1, rfl, fun n => ?_, hk⟩
      cases n with
      | zero => dsimp only; rw [h0]; exact Or.inl h1
      | succ n => exact hs n

/-- C74: and there are runs in which all of them have ended. -/
theorem C74_completion {n : Nat} (hn : n < 2 ^ 30) (E : Ext) (s : Server) (h : Heap) (jobs : Fin n → JobH)
    (jobsV : Fin n → JobV) (hj : ∀ t, JobShows h.mem (jobs t) (jobsV t)) :
    ∃ run k, IsRunL E s h jobs run ∧ ∀ t, ∃ x, (run k).Ended t x := by
  obtain ⟨run, k, h0, hs, hk⟩ := lock_completion (few_fin hn) _ _ (lock_start E s h jobs jobsV hj)
  exact ⟨run, k, ⟨h0, hs⟩, hk⟩

/-- C74: the goroutines of C71_example with Go's lock: two insert a record each, and a third answers a request for that
user. Some schedule brings all of them to their end, and whenever no step is left, both records are inserted and the
request is answered. -/
theorem C74_example (z : ZMod client.suite.q) : ∃ (h : Heap) (jobs : Fin 3 → JobH) (jobsV : Fin 3 → JobV),
    (∀ t, JobShows h.mem (jobs t) (jobsV t)) ∧
    (∃ run k, IsRunL ext server h jobs run ∧ ∀ t, ∃ x, (run k).Ended t x) ∧
    ∀ run k, IsRunL ext server h jobs run → (¬ ∃ c', SrvL.Step (run k) c') →
      (run k).Ended 0 (.ok (.loaded 1 0)) ∧ (run k).Ended 1 (.ok (.loaded 1 0)) ∧
      ∃ body, (run k).Ended 2 (.ok (.replied body)) := by
  obtain ⟨h, jobs, jobsV, hj, -, hx⟩ := C71_example z
  refine ⟨h, jobs, jobsV, hj, C74_completion (by decide) ext server h jobs jobsV hj, fun run k r hk => ?_⟩
  have hd := C74_ends (by decide) ext server h jobs jobsV hj run r k hk
  obtain ⟨base, hr, hs⟩ := C74_same_runs (few_fin (by decide)) ext server h jobs jobsV hj run r
  have hcode := (hs k).code
  obtain ⟨h0, h1, body, h2⟩ := hx base k hr fun t => by
    obtain ⟨x, hx⟩ := hd t
    exact ⟨x, by rw [← hcode]; exact hx.1⟩
  rw [← hcode] at h0 h1 h2
  have idle : ∀ t, (run k).pc t = .idle := fun t => by
    obtain ⟨x, hx⟩ := hd t
    exact hx.2
  exact ⟨⟨h0, idle 0⟩, ⟨h1, idle 1⟩, body, h2, idle 2⟩

end Migp.Props
