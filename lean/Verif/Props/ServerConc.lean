import Verif.Lemmas.ServerConc
import Verif.Props.ConcInsert
import Verif.Props.Parallel
import Verif.Props.Witness
import Verif.Props.Shadow
/-!
# C71: the goroutines of the server
-/
namespace Migp.Props
open Migp.Spec Migp.Example

section
variable {ι : Type} [DecidableEq ι]

/-- A log that is known to explain a state, with what is known besides. -/
theorem server_chain {E : Ext} {s : Server} {h : Heap} {jobs : ι → JobH} {jobsV : ι → JobV} {run : Nat → Srv ι}
    (r : IsRun E s h jobs run) (hj : ∀ t, JobShows h.mem (jobs t) (jobsV t)) :
    ∃ g : Nat → SGhost ι, (g 0).log = [] ∧ (g 0).pub = h.mem ∧ (∀ k, SInv E s jobsV (g k) (run k)) ∧
      ∀ k, LogStep (run k) (run (k + 1)) (g k).log (g (k + 1)).log ∧ Grows (g k).pub (g (k + 1)).pub := by
  have next : ∀ k (g : { g : SGhost ι // SInv E s jobsV g (run k) }),
      ∃ g' : { g : SGhost ι // SInv E s jobsV g (run (k + 1)) }, 
        LogStep (run k) (run (k + 1)) g.1.log g'.1.log ∧ Grows g.1.pub g'.1.pub := by
    rintro k ⟨g, i⟩
    rcases r.step k with st | e
    · obtain ⟨g', i', l⟩ := i.step st
      exact ⟨⟨g', i'⟩, l⟩
    · exact ⟨⟨g, by rw [e]; exact i⟩, Or.inl rfl, Grows.refl _⟩
  have i0 := SInv.start E s h jobs jobsV hj
  rw [← r.start] at i0
  let chain : (k : Nat) → { g : SGhost ι // SInv E s jobsV g (run k) } := fun k =>
    Nat.rec ⟨_, i0⟩ (fun k g => Classical.choose (next k g)) k
  exact ⟨fun k => (chain k).1, rfl, rfl, fun k => (chain k).2, fun k => Classical.choose_spec (next k (chain k))⟩

/-- C71: every run of the server's goroutines is explained by calls of the store made one after the other. -/
theorem C71_log (E : Ext) (s : Server) (h : Heap) (jobs : ι → JobH) (jobsV : ι → JobV)
    (hj : ∀ t, JobShows h.mem (jobs t) (jobsV t)) (run : Nat → Srv ι) (r : IsRun E s h jobs run) :
    ∃ logs : Nat → List (LogEntry ι), LogsOf run logs ∧ ∀ k, Explains E s jobsV (logs k) (run k) := by
  obtain ⟨g, h0, -, hi, hs⟩ := server_chain r hj
  exact ⟨fun k => (g k).log, ⟨h0, fun k => (hs k).1⟩, fun k => (hi k).explains⟩

/-- Logs only get longer. -/
theorem _root_.Migp.Spec.LogsOf.prefix {run : Nat → Srv ι} {logs : Nat → List (LogEntry ι)} (l : LogsOf run logs) (j : Nat)
    (n : Nat) : logs j <+: logs (j + n) := by
  induction n with
  | zero => exact List.prefix_rfl
  | succ n ih =>
    refine ih.trans ?_
    rcases l.2 (j + n) with e | ⟨t, op, r, e, -⟩
    · rw [← Nat.add_assoc, e]
    · rw [← Nat.add_assoc, e]; exact List.prefix_append _ _

/-- A goroutine that does not move makes no calls. -/
theorem _root_.Migp.Spec.LogsOf.still {run : Nat → Srv ι} {logs : Nat → List (LogEntry ι)} (l : LogsOf run logs) {t : ι}
    (j : Nat) (hm : ∀ i ≤ j, (run i).code t = (run 0).code t) : traceOf t (logs j) = [] := by
  induction j with
  | zero => rw [l.1]; rfl
  | succ j ih =>
    have ih := ih fun i hi => hm i (by omega)
    rcases l.2 j with e | ⟨u, op, r, e, hne⟩
    · rw [e]; exact ih
    · rw [e, traceOf_snoc, ih]
      by_cases hu : u = t
      · subst hu
        exact absurd ((hm (j + 1) (le_refl _)).trans (hm j (by omega)).symm) hne
      · rw [if_neg hu]

/-- A call of a goroutine that made none up to `j` comes after `logs j`. -/
theorem log_split {t : ι} {a b : List (LogEntry ι)} (h : a <+: b) (ha : traceOf t a = []) {op : KVOp} {r : Bytes}
    (hb : traceOf t b = [(op, r)]) : ∃ p q, b = p ++ (t, op, r) :: q ∧ a <+: p := by
  obtain ⟨c, rfl⟩ := h
  have hc : traceOf t c = [(op, r)] := by
    unfold traceOf at *
    rw [List.filter_append, List.map_append, ha, List.nil_append] at hb
    exact hb
  have hm : (op, r) ∈ traceOf t c := by rw [hc]; simp
  unfold traceOf at hm
  obtain ⟨⟨t', x⟩, hx0, e⟩ := List.mem_map.mp hm
  obtain ⟨hx, ht⟩ := List.mem_filter.mp hx0
  clear hx0
  have ht : t' = t := by simpa using ht
  subst ht
  dsimp only at e
  subst e
  obtain ⟨c1, c2, rfl⟩ := List.append_of_mem hx
  exact ⟨a ++ c1, c2, by simp, List.prefix_append _ _⟩

/-- C71: the reply to a request, if a goroutine gives one, is the reply that the library computes on the store at one
moment after the goroutine has begun, and before the reply: it misses nothing that was stored before it began, and has
nothing that is not stored by the time it ends; and nothing in between is torn. -/
theorem C71_reply (E : Ext) (s : Server) (h : Heap) (jobs : ι → JobH) (jobsV : ι → JobV) (run : Nat → Srv ι)
    (r : IsRun E s h jobs run) (logs : Nat → List (LogEntry ι)) (hl : LogsOf run logs)
    (hx : ∀ k, Explains E s jobsV (logs k) (run k)) (t : ι) (request : ClientRequest) (ht : jobsV t = .reply request)
    (k : Nat) (body : Bytes) (hd : (run k).code t = .done (.ok (.replied body)))
    (j : Nat) (hjk : j ≤ k) (hb : ∀ i ≤ j, (run i).code t = (run 0).code t) :
    ∃ log, logs j <+: log ∧ log <+: logs k ∧ ∀ kv : Getter,
      (∀ id b, Spec.Holds id (log.map fun e => e.2.1) b → kv id = .ok b) → replyOf s kv request = .ok body := by
  obtain ⟨n, rfl⟩ := Nat.exists_eq_add_of_le hjk
  have he := (hx (j + n)).ends t _ hd
  rw [ht] at he
  have key : ∀ x : Res Bytes, (.ok (.replied body) : Res JobOut) = (x >>= fun body => .ok (.replied body)) → x = .ok body := by
    intro x e
    cases x with
    | ok y => cases e; rfl
    | err _ => cases e
    | panic _ => cases e
  rcases he with ⟨b, htr, e⟩ | ⟨-, e⟩
  · obtain ⟨p, q, hp, hjp⟩ := log_split (hl.prefix j n) (hl.still j hb) htr
    refine ⟨p, hjp, ⟨_, hp.symm⟩, fun kv hkv => ?_⟩
    have leg := (hx (j + n)).legal (p.map Prod.snd) (.get request.bucketID) b (q.map Prod.snd) (by rw [hp]; simp)
    dsimp only at leg
    rw [List.map_map] at leg
    have hk : kv request.bucketID = .ok b := hkv _ _ leg
    rw [← key _ e]
    unfold replyOf Server.handleRequest
    simp only [hk]
  · exact ⟨logs j, List.prefix_rfl, hl.prefix j n, fun kv _ => key _ (e kv)⟩

/-! ### Data races -/

theorem server_inv {E : Ext} {s : Server} {h : Heap} {jobs : ι → JobH} {jobsV : ι → JobV} {run : Nat → Srv ι}
    (r : IsRun E s h jobs run) (hj : ∀ t, JobShows h.mem (jobs t) (jobsV t)) (k : Nat) :
    ∃ g, SInv E s jobsV g (run k) := by
  obtain ⟨g, -, -, hi, -⟩ := server_chain r hj
  exact ⟨g k, hi k⟩

/-- C71: never is a goroutine about to write to a byte that another is about to write to or read, nor to change the map
of the store while another is about to look at it or to change it. -/
theorem C71_no_data_race (E : Ext) (s : Server) (h : Heap) (jobs : ι → JobH) (jobsV : ι → JobV)
    (hj : ∀ t, JobShows h.mem (jobs t) (jobsV t)) (run : Nat → Srv ι) (r : IsRun E s h jobs run) (k : Nat) (t u : ι)
    (htu : t ≠ u) :
    (∀ arr i, ¬ (((run k).code t).Writes arr i ∧ ((run k).code u).Accesses arr i)) ∧
      ¬ (((run k).code t).SetsMap ∧ ((run k).code u).UsesMap) := by
  obtain ⟨g, i⟩ := server_inv r hj k
  have st := i.safe t
  have su := i.safe u
  refine ⟨fun arr n ⟨⟨v, c, e⟩, ha⟩ => ?_, fun ⟨⟨id, sl, c, e⟩, ha⟩ => ?_⟩
  · rw [e] at st
    obtain ⟨x, hx, hn, hf, -⟩ := st
    have hno : (g.view u).own arr = none := by
      by_contra hh
      exact htu (i.mem.excl t u arr (by rw [hx]; simp) hh)
    rcases ha with ⟨c', e'⟩ | ⟨v', c', e'⟩
    · rw [e'] at su
      obtain ⟨y, hy, -⟩ := su
      unfold Memory.byte at hy
      rw [View.mem_fro hno] at hy
      cases hfr : (g.view u).fro arr with
      | none => rw [hfr] at hy; cases hy
      | some f =>
        rw [hfr] at hy
        obtain ⟨f', hf', hp⟩ := i.mem.fro u arr f hfr
        rw [i.mem.known t arr (by rw [hx]; simp)] at hf'
        have h1 := hf f' hf'
        have h2 := hp.length_le
        have h3 : n < f.length := by
          by_contra hge
          have : f[n]? = none := List.getElem?_eq_none (by omega)
          have hy' : f[n]? = some y := hy
          rw [this] at hy'; cases hy'
        omega
    · rw [e'] at su
      obtain ⟨x', hx', -⟩ := su
      rw [hno] at hx'; cases hx'
  · rw [e] at st
    obtain ⟨sl', old, b, x, hm, -⟩ := st
    have hW : (g.view t).mode.W = true := by rw [hm]; rfl
    rcases ha with ⟨id', c', e'⟩ | ⟨id', sl', c', e'⟩
    · rw [e'] at su
      rcases su with ⟨hm', -⟩ | ⟨hm', -⟩
      · exact i.lock.excl t u hW hm'
      · exact htu (i.lock.uniq t u hW (by rw [hm']; rfl))
    · rw [e'] at su
      obtain ⟨sl'', old', b', x', hm', -⟩ := su
      exact htu (i.lock.uniq t u hW (by rw [hm']; rfl))

theorem srv_step_lengths {st st' : Srv ι} (h : Srv.Step st st') (a : Nat) (x : Bytes) (hx : st.heap.mem a = some x) :
    ∃ y, st'.heap.mem a = some y ∧ y.length = x.length := by
  have app : ∀ b : Bytes, (st.heap ++ [b]).mem a = some x := fun b => by
    unfold Heap.mem at hx ⊢
    rw [List.getElem?_append_left (List.getElem?_eq_some_iff.mp hx).1]
    exact hx
  cases h with
  | alloc t b k hc => exact ⟨x, app b, rfl⟩
  | grow t n k b hc hn => exact ⟨x, app b, rfl⟩
  | write t c i v k hc =>
    show ∃ y, (st.heap.setByte c i v).mem a = some y ∧ y.length = x.length
    cases hm : st.heap.mem c with
    | none =>
      refine ⟨x, ?_, rfl⟩
      unfold Heap.mem at *
      unfold Heap.setByte
      rw [List.set_eq_of_length_le (List.getElem?_eq_none_iff.mp hm)]; exact hx
    | some z =>
      rw [Heap.mem_setByte hm]
      by_cases e : a = c
      · subst e
        rw [hm] at hx; cases hx
        exact ⟨_, Memory.upd_self .., List.length_set ..⟩
      · exact ⟨x, by rw [Memory.upd_ne _ _ e]; exact hx, rfl⟩
  | _ => exact ⟨x, hx, rfl⟩

/-- C71: nothing of what was in memory before the goroutines began is ever changed: not the records, not the requests,
nor what they are part of. -/
theorem C71_memory_kept (E : Ext) (s : Server) (h : Heap) (jobs : ι → JobH) (jobsV : ι → JobV)
    (hj : ∀ t, JobShows h.mem (jobs t) (jobsV t)) (run : Nat → Srv ι) (r : IsRun E s h jobs run) (k : Nat) :
    Kept h.mem (run k).heap.mem := by
  obtain ⟨g, -, hp, hi, hs⟩ := server_chain r hj
  have hg : Grows h.mem (g k).pub := by
    induction k with
    | zero => rw [hp]; exact Grows.refl _
    | succ k ih => exact ih.trans (hs k).2
  have hlen : ∀ a x, h.mem a = some x → ∃ y, (run k).heap.mem a = some y ∧ y.length = x.length := by
    clear hg
    intro a x hx
    induction k with
    | zero => rw [r.start]; exact ⟨x, hx, rfl⟩
    | succ k ih =>
      obtain ⟨y, hy, hl⟩ := ih
      rcases r.step k with st | e
      · obtain ⟨z, hz, hl'⟩ := srv_step_lengths st a y hy
        exact ⟨z, hz, hl'.trans hl⟩
      · rw [e]; exact ⟨y, hy, hl⟩
  intro a x hx
  obtain ⟨y, hy, hp⟩ := (hg.trans (hi k).mem.shown) a x hx
  obtain ⟨z, hz, hl⟩ := hlen a x hx
  rw [hy] at hz; cases hz
  rw [hy, hp.eq_of_length hl.symm]

/-- C71: every byte accessed exists. -/
theorem C71_accesses_exist (E : Ext) (s : Server) (h : Heap) (jobs : ι → JobH) (jobsV : ι → JobV)
    (hj : ∀ t, JobShows h.mem (jobs t) (jobsV t)) (run : Nat → Srv ι) (r : IsRun E s h jobs run) (k : Nat) (t : ι) :
    ∀ arr i, ((run k).code t).Accesses arr i → (run k).heap.mem.byte arr i ≠ none := by
  obtain ⟨g, i⟩ := server_inv r hj k
  intro arr n ha
  have st := i.safe t
  rcases ha with ⟨c, e⟩ | ⟨v, c, e⟩
  · rw [e] at st
    obtain ⟨y, hy, -⟩ := st
    rw [(i.mem.view t).byte hy]; simp
  · rw [e] at st
    obtain ⟨x, hx, hn, -⟩ := st
    unfold Memory.byte
    rw [i.mem.own t _ _ hx]
    simp [hn]

/-! ### Progress -/

theorem SM.step_of_held {st : Srv ι} {t : ι} {v : View} {J : List (KVOp × Bytes) → Prop} {P : View → Res JobOut → Prop}
    (hs : SSafe J (st.code t) v fun v r => v.mode = .free ∧ P v r) (hm : v.mode ≠ .free) : ∃ st', Srv.Step st st' := by
  cases hc : st.code t with
  | done x => rw [hc] at hs; exact absurd hs.1 hm
  | alloc b c => exact ⟨_, .alloc st t b c hc⟩
  | grow n c => exact ⟨_, .grow st t n c (List.replicate n 0) hc (by simp)⟩
  | read a i c => exact ⟨_, .read st t a i c hc⟩
  | write a i v c => exact ⟨_, .write st t a i v c hc⟩
  | lock c => rw [hc] at hs; exact absurd hs.1 hm
  | unlock c => exact ⟨_, .unlock st t c hc⟩
  | rlock c => rw [hc] at hs; exact absurd hs.1 hm
  | runlock c => exact ⟨_, .runlock st t c hc⟩
  | mapGet id c => exact ⟨_, .mapGet st t id c hc⟩
  | mapSet id sl c => exact ⟨_, .mapSet st t id sl c hc⟩

theorem server_progress {E : Ext} {s : Server} {jobsV : ι → JobV} {g : SGhost ι} {st : Srv ι} (i : SInv E s jobsV g st)
    (t : ι) (ht : ∀ x, st.code t ≠ .done x) : ∃ st', Srv.Step st st' := by
  have wait : st.writer = true → ∃ st', Srv.Step st st' := fun hw => by
    obtain ⟨u, hu⟩ := i.lock.writer.mp hw
    exact SM.step_of_held (i.safe u) (by intro e; rw [e] at hu; cases hu)
  cases hc : st.code t with
  | done x => exact absurd hc (ht x)
  | alloc b c => exact ⟨_, .alloc st t b c hc⟩
  | grow n c => exact ⟨_, .grow st t n c (List.replicate n 0) hc (by simp)⟩
  | read a i c => exact ⟨_, .read st t a i c hc⟩
  | write a i v c => exact ⟨_, .write st t a i v c hc⟩
  | lock c =>
    cases hw : st.writer with
    | true => exact wait hw
    | false =>
      by_cases hr : st.readers = 0
      · exact ⟨_, .lock st t c hc hw hr⟩
      · obtain ⟨L, -, h2, h3⟩ := i.lock.readers
        cases L with
        | nil => exact absurd h2.symm hr
        | cons u L =>
          have hu := (h3 u).mp (by simp)
          exact SM.step_of_held (i.safe u) (by rw [hu]; intro e; cases e)
  | unlock c => exact ⟨_, .unlock st t c hc⟩
  | rlock c =>
    cases hw : st.writer with
    | true => exact wait hw
    | false => exact ⟨_, .rlock st t c hc hw⟩
  | runlock c => exact ⟨_, .runlock st t c hc⟩
  | mapGet id c => exact ⟨_, .mapGet st t id c hc⟩
  | mapSet id sl c => exact ⟨_, .mapSet st t id sl c hc⟩

/-- C71: no deadlock: while some goroutine has not ended, one of them can make a step. -/
theorem C71_progress (E : Ext) (s : Server) (h : Heap) (jobs : ι → JobH) (jobsV : ι → JobV)
    (hj : ∀ t, JobShows h.mem (jobs t) (jobsV t)) (run : Nat → Srv ι) (r : IsRun E s h jobs run) (k : Nat) (t : ι)
    (ht : ∀ x, (run k).code t ≠ .done x) : ∃ st', Srv.Step (run k) st' := by
  obtain ⟨g, i⟩ := server_inv r hj k
  exact server_progress i t ht

end

theorem srv_wf {n : Nat} : WellFounded (fun s' s : Srv (Fin n) => Srv.Step s s') := by
  have wf : WellFounded (Pi.Lex (· < ·) (fun {_ : Fin n} => SM.Next (α := JobOut))) :=
    Pi.Lex.wellFounded _ fun _ => SM.next_wf
  refine Subrelation.wf ?_ (InvImage.wf Srv.code wf)
  intro s' s st
  have up : ∀ (t : Fin n) (m : SM JobOut), SM.Next m (s.code t) →
      Pi.Lex (· < ·) (fun {_ : Fin n} => SM.Next (α := JobOut)) (Function.update s.code t m) s.code := fun t m h =>
    ⟨t, fun j hj => Function.update_of_ne (ne_of_lt hj) _ _, by rw [Function.update_self]; exact h⟩
  cases st with
  | alloc t b k hc => exact up t _ (by rw [hc]; exact .alloc b k _)
  | grow t n k x hc => exact up t _ (by rw [hc]; exact .grow n k _ _)
  | read t a j k hc => exact up t _ (by rw [hc]; exact .read a j k _)
  | write t a j v k hc => exact up t _ (by rw [hc]; exact .write a j v k)
  | lock t k hc => exact up t _ (by rw [hc]; exact .lock k)
  | unlock t k hc => exact up t _ (by rw [hc]; exact .unlock k)
  | rlock t k hc => exact up t _ (by rw [hc]; exact .rlock k)
  | runlock t k hc => exact up t _ (by rw [hc]; exact .runlock k)
  | mapGet t id k hc => exact up t _ (by rw [hc]; exact .mapGet id k _)
  | mapSet t id sl k hc => exact up t _ (by rw [hc]; exact .mapSet id sl k)

/-- C71: any finite number of goroutines comes to an end, however they are scheduled. -/
theorem C71_termination {n : Nat} (run : Nat → Srv (Fin n)) : ¬ ∀ i, Srv.Step (run i) (run (i + 1)) :=
  fun h => (wellFounded_iff_isEmpty_descending_chain.mp srv_wf).false ⟨run, h⟩

theorem server_completion {n : Nat} {E : Ext} {s : Server} {jobsV : Fin n → JobV} (st : Srv (Fin n)) :
    ∀ g, SInv E s jobsV g st →
    ∃ (run : Nat → Srv (Fin n)) (k : Nat), run 0 = st ∧ (∀ i, Srv.Step (run i) (run (i + 1)) ∨ run (i + 1) = run i) ∧
      ∀ t, ∃ x, (run k).code t = .done x := by
  induction st using srv_wf.induction with
  | h st ih =>
    intro g i
    by_cases hd : ∀ t, ∃ x, st.code t = .done x
    · exact ⟨fun _ => st, 0, rfl, fun _ => Or.inr rfl, hd⟩
    · obtain ⟨t, ht⟩ := not_forall.mp hd
      obtain ⟨s1, h1⟩ := server_progress i t (fun x hx => ht ⟨x, hx⟩)
      obtain ⟨g', i', -⟩ := i.step h1
      obtain ⟨run, k, h0, hs, hk⟩ := ih s1 h1 g' i'
      refine ⟨fun n => match n with | 0 => st | n + 1 => run n, k + 1, rfl, fun n => ?_, hk⟩
      cases n with
      | zero => dsimp only; rw [h0]; exact Or.inl h1
      | succ n => exact hs n

/-- C71: and there are runs in which all of them have ended. -/
theorem C71_completion {n : Nat} (E : Ext) (s : Server) (h : Heap) (jobs : Fin n → JobH) (jobsV : Fin n → JobV)
    (hj : ∀ t, JobShows h.mem (jobs t) (jobsV t)) :
    ∃ run k, IsRun E s h jobs run ∧ ∀ t, ∃ x, (run k).code t = .done x := by
  obtain ⟨run, k, h0, hs, hk⟩ := server_completion _ _ (SInv.start E s h jobs jobsV hj)
  exact ⟨run, k, ⟨h0, hs⟩, hk⟩

/-! ### One goroutine that loads records, and any number that answer requests -/

section
variable {ι : Type} [DecidableEq ι]

/-- The call changes the store. -/
def changes : KVOp → Bool
  | .get _ => false
  | _ => true

theorem run_changes (kv : KV) (ops : List KVOp) : (kv.run ops).1 = (kv.run (ops.filter changes)).1 := by
  induction ops generalizing kv with
  | nil => rfl
  | cons op ops ih =>
    cases op with
    | get k => exact ih kv
    | put k v => exact ih _
    | append k v => exact ih _

theorem insertCalls_change (E : Ext) (s : Server) (r : Record) : (insertCalls E s r).filter changes = insertCalls E s r := by
  have hv : ∀ (u m : Bytes) (hex : GoString) (vs : List Bytes),
      ((variantCalls E s u m hex vs).1).filter changes = (variantCalls E s u m hex vs).1 := by
    intro u m hex vs
    induction vs with
    | nil => rfl
    | cons v vs ih =>
      unfold variantCalls
      split
      · exact congrArg (List.cons _) ih
      · rfl
  have hu : ∀ (u m : Bytes) (hex : GoString) (w : Bool), (usernameCalls E s u m hex w).filter changes = usernameCalls E s u m hex w := by
    intro u m hex w
    unfold usernameCalls
    split
    · split <;> rfl
    · rfl
  unfold insertCalls
  split
  · split
    · refine congrArg (List.cons _) ?_
      split
      · rw [List.filter_append, hv]
        split
        · rw [hu]
        · rfl
      · rfl
    · rfl
  · rfl

theorem loadCalls_change (E : Ext) (s : Server) (rs : List Record) : (loadCalls E s rs).filter changes = loadCalls E s rs := by
  induction rs with
  | nil => rfl
  | cons r rs ih =>
    unfold loadCalls
    rw [List.filter_append, insertCalls_change]
    split
    · rfl
    · rw [ih]

theorem load_run (E : Ext) (s : Server) (rs : List Record) : ∀ (kv : KV) (n m : Nat) (x : Nat × Nat),
    loadOutcome E s rs n m = .ok x →
    rs.foldl (fun kv r => (insertRecord E s r kv).1) kv = (kv.run (loadCalls E s rs)).1 := by
  induction rs with
  | nil => intros; rfl
  | cons r rs ih =>
    intro kv n m x h
    unfold loadOutcome at h
    unfold loadCalls
    rw [List.foldl_cons, C49_insert_calls, run_append]
    split at h
    · next e => rw [e]; exact ih _ _ _ _ h
    · next e => rw [e]; exact ih _ _ _ _ h
    · cases h

theorem load_count (E : Ext) (s : Server) (rs : List Record) : ∀ (n m : Nat) (x : Nat × Nat),
    loadOutcome E s rs n m = .ok x → x.1 + x.2 = n + m + rs.length := by
  induction rs with
  | nil => intro n m x h; cases h; rfl
  | cons r rs ih =>
    intro n m x h
    unfold loadOutcome at h
    rw [List.length_cons]
    split at h
    · have := ih _ _ _ h; omega
    · have := ih _ _ _ h; omega
    · cases h

/-- What the other goroutines call does not change the store. -/
theorem log_changes {E : Ext} {s : Server} {jobsV : ι → JobV} {t : ι} (others : ∀ u, u ≠ t → ∀ rs, jobsV u ≠ .load rs) :
    ∀ log : List (LogEntry ι), (∀ u, (traceOf u log).map Prod.fst <+: (jobsV u).calls E s) →
      (log.map fun e => e.2.1).filter changes = ((traceOf t log).map Prod.fst).filter changes := by
  intro log h
  have hg : ∀ e ∈ log, e.1 ≠ t → changes e.2.1 = false := by
    rintro ⟨u, op, r⟩ he hne
    have h' := h u
    have hm : op ∈ (traceOf u log).map Prod.fst := by
      unfold traceOf
      exact List.mem_map.mpr ⟨(op, r), List.mem_map.mpr ⟨(u, op, r), List.mem_filter.mpr ⟨he, by simp⟩, rfl⟩, rfl⟩
    have hin := h'.subset hm
    have hno := others u hne
    cases hq : jobsV u with
    | load rs => exact absurd hq (hno rs)
    | reply q =>
      rw [hq] at hin
      rw [List.mem_singleton.mp hin]; rfl
    | serve stale path body =>
      rw [hq] at hin
      unfold JobV.calls at hin
      dsimp only at hin
      split at hin
      · rw [List.mem_singleton.mp hin]; rfl
      · cases hin
  clear h
  unfold traceOf
  induction log with
  | nil => rfl
  | cons e log ih =>
    have ih := ih fun e he => hg e (List.mem_cons_of_mem _ he)
    by_cases ht : e.1 = t
    · rw [List.filter_cons_of_pos (by simpa using ht)]
      simp only [List.map_cons, List.filter_cons]
      rw [ih]
    · rw [List.filter_cons_of_neg (by simpa using ht), List.map_cons,
        List.filter_cons_of_neg (by rw [hg e (by simp) ht]; simp), ih]

/-- The store after a log in which the goroutine that loads has made all its calls. -/
theorem loaded_contents {E : Ext} {s : Server} {jobsV : ι → JobV} {t : ι} {rs : List Record} (ht : jobsV t = .load rs)
    (others : ∀ u, u ≠ t → ∀ rs, jobsV u ≠ .load rs) {log : List (LogEntry ι)}
    (hc : ∀ u, (traceOf u log).map Prod.fst <+: (jobsV u).calls E s) (hall : (traceOf t log).map Prod.fst = loadCalls E s rs)
    {x : Nat × Nat} (ho : loadOutcome E s rs 0 0 = .ok x) :
    (newKVStore.run (log.map fun e => e.2.1)).1 = afterLoading E s rs := by
  unfold afterLoading
  rw [load_run E s rs newKVStore 0 0 x ho, run_changes, log_changes others log hc, hall, loadCalls_change]

theorem load_ends {E : Ext} {s : Server} {rs : List Record} {tr : List (KVOp × Bytes)} {n m : Nat}
    (h : (JobV.load rs).Ends E s tr (.ok (.loaded n m))) : tr.map Prod.fst = loadCalls E s rs ∧
      loadOutcome E s rs 0 0 = .ok (n, m) := by
  refine ⟨h.1, ?_⟩
  have e := h.2
  cases hl : loadOutcome E s rs 0 0 with
  | ok x => rw [hl] at e; cases e; rfl
  | err _ => rw [hl] at e; cases e
  | panic _ => rw [hl] at e; cases e

/-- C71: when a goroutine has loaded its records, and no other loads any, the store in memory is what inserting the
records one after the other makes of an empty store, whatever requests are being answered; and every record counts as
inserted or as failed. -/
theorem C71_loaded (E : Ext) (s : Server) (h : Heap) (jobs : ι → JobH) (jobsV : ι → JobV)
    (hj : ∀ t, JobShows h.mem (jobs t) (jobsV t)) (run : Nat → Srv ι) (r : IsRun E s h jobs run) (t : ι) (rs : List Record)
    (ht : jobsV t = .load rs) (others : ∀ u, u ≠ t → ∀ rs, jobsV u ≠ .load rs) (k n m : Nat)
    (hd : (run k).code t = .done (.ok (.loaded n m))) :
    (∀ id, Shows (run k).heap.mem ((run k).store id) ((afterLoading E s rs).store id)) ∧ n + m = rs.length := by
  obtain ⟨logs, -, hx⟩ := C71_log E s h jobs jobsV hj run r
  have he := (hx k).ends t _ hd
  rw [ht] at he
  obtain ⟨hall, ho⟩ := load_ends he
  refine ⟨fun id => ?_, by have := load_count E s rs _ _ _ ho; simpa using this⟩
  have := loaded_contents ht others (hx k).calls hall ho
  rw [← this]
  exact (hx k).store id _ (Conc.holds_contents _ id)

/-- C71: and every request that is answered from then on gets the reply of the library on that store. -/
theorem C71_serving (E : Ext) (s : Server) (h : Heap) (jobs : ι → JobH) (jobsV : ι → JobV)
    (hj : ∀ t, JobShows h.mem (jobs t) (jobsV t)) (run : Nat → Srv ι) (r : IsRun E s h jobs run) (t : ι) (rs : List Record)
    (ht : jobsV t = .load rs) (others : ∀ u, u ≠ t → ∀ rs, jobsV u ≠ .load rs) (j n m : Nat)
    (hd : (run j).code t = .done (.ok (.loaded n m))) (u : ι) (request : ClientRequest) (hu : jobsV u = .reply request)
    (hb : ∀ i ≤ j, (run i).code u = (run 0).code u) (k : Nat) (hjk : j ≤ k) (body : Bytes)
    (hr : (run k).code u = .done (.ok (.replied body))) :
    replyOf s (afterLoading E s rs).get request = .ok body := by
  obtain ⟨logs, hl, hx⟩ := C71_log E s h jobs jobsV hj run r
  obtain ⟨log, h1, h2, h3⟩ := C71_reply E s h jobs jobsV run r logs hl hx u request hu k body hr j hjk hb
  have he := (hx j).ends t _ hd
  rw [ht] at he
  obtain ⟨hall, ho⟩ := load_ends he
  have mono : ∀ {a b : List (LogEntry ι)}, a <+: b → ∀ v, (traceOf v a).map Prod.fst <+: (traceOf v b).map Prod.fst := by
    rintro a b ⟨c, rfl⟩ v
    unfold traceOf
    rw [List.filter_append, List.map_append, List.map_append]
    exact List.prefix_append _ _
  have hc : ∀ v, (traceOf v log).map Prod.fst <+: (jobsV v).calls E s := fun v => (mono h2 v).trans ((hx k).calls v)
  have hall' : (traceOf t log).map Prod.fst = loadCalls E s rs := by
    have h4 := mono h1 t
    have h5 := hc t
    rw [ht] at h5
    rw [hall] at h4
    exact (h4.eq_of_length (le_antisymm h4.length_le h5.length_le)).symm
  rw [← loaded_contents ht others hc hall' ho]
  exact h3 _ fun id b hb => C46_map _ id b hb

end

/-! ### Loading first, then serving -/

section
variable {ι : Type} [DecidableEq ι]

/-- A state of one goroutine among others that have not moved. -/
def among (code : ι → SM JobOut) (t : ι) (st : Srv (Fin 1)) : Srv ι :=
  ⟨st.heap, st.store, st.writer, st.readers, Function.update code t (st.code 0)⟩

theorem among_step (code : ι → SM JobOut) (t : ι) {st st' : Srv (Fin 1)} (h : Srv.Step st st') :
    Srv.Step (among code t st) (among code t st') := by
  have hc : ∀ {u : Fin 1} {m : SM JobOut}, st.code u = m → (among code t st).code t = m := fun {u m} e => by
    have : u = 0 := Subsingleton.elim _ _
    subst this
    show Function.update code t (st.code 0) t = m
    rw [Function.update_self]; exact e
  have up : ∀ (u : Fin 1) (m : SM JobOut), Function.update code t (Function.update st.code u m 0) =
      Function.update (among code t st).code t m := fun u m => by
    have : u = 0 := Subsingleton.elim _ _
    subst this
    show _ = Function.update (Function.update code t (st.code 0)) t m
    rw [Function.update_self, Function.update_idem]
  unfold among at up ⊢
  cases h with
  | alloc u b k e => rw [up]; exact .alloc _ t b k (hc e)
  | grow u n k x e hn => rw [up]; exact .grow _ t n k x (hc e) hn
  | read u a i k e => rw [up]; exact .read _ t a i k (hc e)
  | write u a i v k e => rw [up]; exact .write _ t a i v k (hc e)
  | lock u k e h1 h2 => rw [up]; exact .lock _ t k (hc e) h1 h2
  | unlock u k e => rw [up]; exact .unlock _ t k (hc e)
  | rlock u k e h1 => rw [up]; exact .rlock _ t k (hc e) h1
  | runlock u k e => rw [up]; exact .runlock _ t k (hc e)
  | mapGet u id k e => rw [up]; exact .mapGet _ t id k (hc e)
  | mapSet u id sl k e => rw [up]; exact .mapSet _ t id sl k (hc e)

/-- A goroutine may come to its end before any other has begun, and then the others to theirs. -/
theorem server_first {n : Nat} (E : Ext) (s : Server) (h : Heap) (jobs : Fin n → JobH) (jobsV : Fin n → JobV)
    (hj : ∀ t, JobShows h.mem (jobs t) (jobsV t)) (t : Fin n) : ∃ run j k, IsRun E s h jobs run ∧ j ≤ k ∧
      (∃ x, (run j).code t = .done x) ∧ (∀ u, u ≠ t → ∀ i ≤ j, (run i).code u = (run 0).code u) ∧
      ∀ u, ∃ x, (run k).code u = .done x := by
  obtain ⟨run1, j, r1, hd1⟩ := C71_completion (n := 1) E s h (fun _ => jobs t) (fun _ => jobsV t) fun _ => hj t
  let A : Nat → Srv (Fin n) := fun i => among (fun u => (jobs u).code E s) t (run1 i)
  have hA : IsRun E s h jobs A := by
    refine ⟨?_, fun i => (r1.step i).imp (among_step _ t) fun e => congrArg (among _ t) e⟩
    show among _ t (run1 0) = _
    rw [r1.start]
    show (⟨h, _, false, 0, Function.update (fun u => (jobs u).code E s) t ((jobs t).code E s)⟩ : Srv (Fin n)) = _
    rw [Function.update_eq_self]
    rfl
  obtain ⟨g, i⟩ := server_inv hA hj j
  obtain ⟨B, k, hB0, hBs, hBd⟩ := server_completion _ _ i
  refine ⟨fun m => if m ≤ j then A m else B (m - j), j, j + k, ⟨by simpa using hA.start, fun m => ?_⟩, by omega, ?_, ?_, ?_⟩
  · by_cases h1 : m + 1 ≤ j
    · rw [if_pos h1, if_pos (by omega)]; exact hA.step m
    · rw [if_neg h1]
      have hm : (if m ≤ j then A m else B (m - j)) = B (m - j) := by
        by_cases h2 : m ≤ j
        · have : m = j := by omega
          subst this
          rw [if_pos h2, Nat.sub_self, hB0]
        · rw [if_neg h2]
      rw [hm, show m + 1 - j = (m - j) + 1 by omega]
      exact hBs _
  · obtain ⟨x, hx⟩ := hd1 0
    refine ⟨x, ?_⟩
    dsimp only
    rw [if_pos (le_refl j)]
    show Function.update (fun u => (jobs u).code E s) t ((run1 j).code 0) t = _
    rw [Function.update_self]; exact hx
  · intro u hu m hm
    dsimp only
    rw [if_pos hm, if_pos (Nat.zero_le j)]
    show Function.update (fun u => (jobs u).code E s) t ((run1 m).code 0) u =
      Function.update (fun u => (jobs u).code E s) t ((run1 0).code 0) u
    rw [Function.update_of_ne hu, Function.update_of_ne hu]
  · dsimp only
    by_cases hk : k = 0
    · subst hk
      rw [Nat.add_zero, if_pos (le_refl j)]
      rw [hB0] at hBd
      exact hBd
    · rw [if_neg (by omega), Nat.add_sub_cancel_left]
      exact hBd

end

/-! ### Examples -/

def exRecord : Record := ⟨ascii "bob", ascii "hunter2", [], 2, true⟩
def exRecordH : RecordH := ⟨⟨0, 0, 3, 3⟩, ⟨0, 4, 7, 10⟩, Slice.nil, 2, true⟩

theorem ex_loadOutcome : loadOutcome ext server [exRecord] 0 0 = .ok (1, 0) := by
  obtain ⟨kv', hkv⟩ := example_insert exRecord newKVStore (by decide) (by decide) (by decide) (by decide) (by decide)
  unfold loadOutcome
  rw [hkv]
  rfl

/-- A record and a request, in memory; whatever is in the store, the request is answered. -/
theorem ex_server (z : ZMod client.suite.q) : ∃ (h : Heap) (reqH : ClientRequestH) (req : ClientRequest),
    RecordShows h.mem exRecordH exRecord ∧ RequestShows h.mem reqH req ∧
    ∀ b, ∃ body, replyOf server (fun _ => .ok b) req = .ok body := by
  obtain ⟨req, ctx, -, hreq, -⟩ := example_request newKVStore (ascii "bob") (ascii "hunter2") (by decide) (by decide) z
  have hk : Kept exHeap.mem (Heap.mem (exHeap ++ [req.blindElement])) := by
    rw [Heap.mem_append]
    exact kept_upd_out (Kept.refl _) exHeap.mem_none _
  refine ⟨exHeap ++ [req.blindElement],
    ⟨req.version, req.bucketID, ⟨1, 0, req.blindElement.length, req.blindElement.length⟩⟩, req,
    ⟨ex_user.mono hk, ex_pass.mono hk, ⟨le_refl _, rfl, fun i hi => absurd hi (Nat.not_lt_zero i)⟩, rfl, rfl⟩,
    ⟨rfl, rfl, le_refl _, rfl, fun i hi => ?_⟩, fun b => ?_⟩
  · have : Heap.mem (exHeap ++ [req.blindElement]) 1 = some req.blindElement := rfl
    unfold Memory.byte
    rw [this]
    simp
  · obtain ⟨req', ctx', resp, hreq', hresp⟩ := example_request ⟨fun _ => b⟩ (ascii "bob") (ascii "hunter2") (by decide)
      (by decide) z
    rw [hreq] at hreq'
    cases hreq'
    refine ⟨be32 resp.version ++ resp.evaluatedElement ++ resp.bucketContents, ?_⟩
    have hresp : server.handleRequest req (fun _ => .ok b) = .ok resp := hresp
    unfold replyOf
    rw [hresp]
    rfl

theorem ex_replied {req : ClientRequest} (hrep : ∀ b, ∃ body, replyOf server (fun _ => .ok b) req = .ok body)
    {tr : List (KVOp × Bytes)} {x : Res JobOut} (e : (JobV.reply req).Ends ext server tr x) :
    ∃ body, x = .ok (.replied body) := by
  rcases e with ⟨b, -, e⟩ | ⟨-, e⟩
  · obtain ⟨body, hb⟩ := hrep b
    rw [hb] at e
    exact ⟨body, e⟩
  · obtain ⟨body, hb⟩ := hrep []
    have e := e (fun _ => .ok [])
    rw [hb] at e
    exact ⟨body, e⟩

/-- C71: two goroutines insert a record each, both of the same line; a third answers a request for that user. Some
schedule brings all of them to their end, and whenever they have got there, both records are inserted and the request
is answered. -/
theorem C71_example (z : ZMod client.suite.q) : ∃ (h : Heap) (jobs : Fin 3 → JobH) (jobsV : Fin 3 → JobV),
    (∀ t, JobShows h.mem (jobs t) (jobsV t)) ∧
    (∃ run k, IsRun ext server h jobs run ∧ ∀ t, ∃ x, (run k).code t = .done x) ∧
    ∀ run k, IsRun ext server h jobs run → (∀ t, ∃ x, (run k).code t = .done x) →
      (run k).code 0 = .done (.ok (.loaded 1 0)) ∧ (run k).code 1 = .done (.ok (.loaded 1 0)) ∧
      ∃ body, (run k).code 2 = .done (.ok (.replied body)) := by
  obtain ⟨h, reqH, req, hrec, hreq, hrep⟩ := ex_server z
  let jobs : Fin 3 → JobH := fun t => match t with
    | 0 => .load [exRecordH]
    | 1 => .load [exRecordH]
    | 2 => .reply reqH
  let jobsV : Fin 3 → JobV := fun t => match t with
    | 0 => .load [exRecord]
    | 1 => .load [exRecord]
    | 2 => .reply req
  have hj : ∀ t, JobShows h.mem (jobs t) (jobsV t) := fun t => match t with
    | 0 => .load _ _ (.cons hrec .nil)
    | 1 => .load _ _ (.cons hrec .nil)
    | 2 => .reply _ _ hreq
  refine ⟨h, jobs, jobsV, hj, C71_completion ext server h jobs jobsV hj, fun run k r hd => ?_⟩
  obtain ⟨logs, hl, hx⟩ := C71_log ext server h jobs jobsV hj run r
  obtain ⟨x0, h0⟩ := hd 0
  obtain ⟨x1, h1⟩ := hd 1
  obtain ⟨x2, h2⟩ := hd 2
  have e0 : (JobV.load [exRecord]).Ends ext server _ x0 := (hx k).ends 0 _ h0
  have e1 : (JobV.load [exRecord]).Ends ext server _ x1 := (hx k).ends 1 _ h1
  obtain ⟨body, e2⟩ := ex_replied hrep ((hx k).ends 2 _ h2)
  refine ⟨?_, ?_, body, by rw [h2, e2]⟩
  · rw [h0, e0.2, ex_loadOutcome]; rfl
  · rw [h1, e1.2, ex_loadOutcome]; rfl

/-- C71_loaded, C71_serving: what cmd/server does: the records are loaded first, and then a request is answered, from
the store that has them. -/
example (z : ZMod client.suite.q) : ∃ (h : Heap) (jobs : Fin 2 → JobH) (jobsV : Fin 2 → JobV) (req : ClientRequest) (run : _)
    (j k : Nat) (body : Bytes), (∀ t, JobShows h.mem (jobs t) (jobsV t)) ∧ IsRun ext server h jobs run ∧ j ≤ k ∧
      (run j).code 0 = .done (.ok (.loaded 1 0)) ∧
      (∀ id, Shows (run j).heap.mem ((run j).store id) ((afterLoading ext server [exRecord]).store id)) ∧
      (run k).code 1 = .done (.ok (.replied body)) ∧
      replyOf server (afterLoading ext server [exRecord]).get req = .ok body := by
  obtain ⟨h, reqH, req, hrec, hreq, hrep⟩ := ex_server z
  let jobs : Fin 2 → JobH := fun t => match t with
    | 0 => .load [exRecordH]
    | 1 => .reply reqH
  let jobsV : Fin 2 → JobV := fun t => match t with
    | 0 => .load [exRecord]
    | 1 => .reply req
  have hj : ∀ t, JobShows h.mem (jobs t) (jobsV t) := fun t => match t with
    | 0 => .load _ _ (.cons hrec .nil)
    | 1 => .reply _ _ hreq
  have ho : ∀ u, u ≠ 0 → ∀ rs, jobsV u ≠ .load rs := fun u => match u with
    | 0 => fun h => (h rfl).elim
    | 1 => fun _ _ h => nomatch h
  obtain ⟨run, j, k, r, hjk, ⟨x0, h0⟩, hstill, hd⟩ := server_first ext server h jobs jobsV hj 0
  obtain ⟨x1, h1⟩ := hd 1
  obtain ⟨logs, hl, hx⟩ := C71_log ext server h jobs jobsV hj run r
  have e0 : (JobV.load [exRecord]).Ends ext server _ x0 := (hx j).ends 0 _ h0
  obtain ⟨body, e1⟩ := ex_replied hrep ((hx k).ends 1 _ h1)
  have h0 : (run j).code 0 = .done (.ok (.loaded 1 0)) := by rw [h0, e0.2, ex_loadOutcome]; rfl
  rw [e1] at h1
  exact ⟨h, jobs, jobsV, req, run, j, k, body, hj, r, hjk, h0,
    (C71_loaded ext server h jobs jobsV hj run r 0 [exRecord] rfl ho j 1 0 h0).1, h1,
    C71_serving ext server h jobs jobsV hj run r 0 [exRecord] rfl ho j 1 0 h0 1 req rfl (hstill 1 (by decide)) k hjk body h1⟩

end Migp.Props
