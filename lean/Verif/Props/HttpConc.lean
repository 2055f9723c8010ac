import Verif.Spec.HttpConc
import Verif.Props.ServerConc
import Verif.Props.Sharper
import Verif.Props.Query
/-!
# C72: clients of a busy server
-/
namespace Migp.Props
open Migp.Spec Migp.Example

section
variable {ι : Type} [DecidableEq ι]

/-- C72: what a goroutine that handles an HTTP request writes is what the handler writes when no other goroutine is
there, on the store at one moment after the request has come and before the reply. -/
theorem C72_outcome (E : Ext) (s : Server) (h : Heap) (jobs : ι → JobH) (jobsV : ι → JobV) (run : Nat → Srv ι)
    (_r : IsRun E s h jobs run) (logs : Nat → List (LogEntry ι)) (hl : LogsOf run logs)
    (hx : ∀ k, Explains E s jobsV (logs k) (run k)) (t : ι) (stale : Nat → Nat → UInt8) (path : GoString)
    (body : Option Bytes) (ht : jobsV t = .serve stale path body)
    (k : Nat) (out : Res JobOut) (hd : (run k).code t = .done out)
    (j : Nat) (hjk : j ≤ k) (hb : ∀ i ≤ j, (run i).code t = (run 0).code t) :
    ∃ log, logs j <+: log ∧ log <+: logs k ∧ ∀ kv : KV,
      (∀ id b, Spec.Holds id (log.map fun e => e.2.1) b → kv.store id = b) →
        out = servedOf (serve s kv stale path body) := by
  obtain ⟨n, rfl⟩ := Nat.exists_eq_add_of_le hjk
  have he := (hx (j + n)).ends t _ hd
  rw [ht] at he
  rcases he with ⟨id, b, htr, e⟩ | ⟨-, e⟩
  · obtain ⟨p, q, hp, hjp⟩ := log_split (hl.prefix j n) (hl.still j hb) htr
    refine ⟨p, hjp, ⟨_, hp.symm⟩, fun kv hkv => ?_⟩
    have leg := (hx (j + n)).legal (p.map Prod.snd) (.get id) b (q.map Prod.snd) (by rw [hp]; simp)
    dsimp only at leg
    rw [List.map_map] at leg
    exact e kv (hkv _ _ leg)
  · exact ⟨logs j, List.prefix_rfl, hl.prefix j n, fun kv _ => e kv⟩

theorem trace_mono {a b : List (LogEntry ι)} (h : a <+: b) (v : ι) :
    (traceOf v a).map Prod.fst <+: (traceOf v b).map Prod.fst := by
  obtain ⟨c, rfl⟩ := h
  unfold traceOf
  rw [List.filter_append, List.map_append, List.map_append]
  exact List.prefix_append _ _

/-- C72: when a goroutine has loaded its records, and no other loads any, the reply to every HTTP request that comes
from then on is what the handler writes on the store with these records. -/
theorem C72_serving (E : Ext) (s : Server) (h : Heap) (jobs : ι → JobH) (jobsV : ι → JobV)
    (hj : ∀ t, JobShows h.mem (jobs t) (jobsV t)) (run : Nat → Srv ι) (r : IsRun E s h jobs run) (t : ι) (rs : List Record)
    (ht : jobsV t = .load rs) (others : ∀ u, u ≠ t → ∀ rs, jobsV u ≠ .load rs) (j n m : Nat)
    (hd : (run j).code t = .done (.ok (.loaded n m))) (u : ι) (stale : Nat → Nat → UInt8) (path : GoString)
    (body : Option Bytes) (hu : jobsV u = .serve stale path body)
    (hb : ∀ i ≤ j, (run i).code u = (run 0).code u) (k : Nat) (hjk : j ≤ k) (out : Res JobOut)
    (hr : (run k).code u = .done out) : out = servedOf (serve s (afterLoading E s rs) stale path body) := by
  obtain ⟨logs, hl, hx⟩ := C71_log E s h jobs jobsV hj run r
  obtain ⟨log, h1, h2, h3⟩ := C72_outcome E s h jobs jobsV run r logs hl hx u stale path body hu k out hr j hjk hb
  have he := (hx j).ends t _ hd
  rw [ht] at he
  obtain ⟨hall, ho⟩ := load_ends he
  have hc : ∀ v, (traceOf v log).map Prod.fst <+: (jobsV v).calls E s := fun v => (trace_mono h2 v).trans ((hx k).calls v)
  have hall' : (traceOf t log).map Prod.fst = loadCalls E s rs := by
    have h4 := trace_mono h1 t
    have h5 := hc t
    rw [ht] at h5
    rw [hall] at h4
    exact (h4.eq_of_length (le_antisymm h4.length_le h5.length_le)).symm
  rw [← loaded_contents ht others hc hall' ho]
  exact h3 _ fun id b hb => Res.ok.inj (C46_map _ id b hb)

end

/-! ### What the calls of goroutines that load store, in the clear -/

/-- The call stores this credential. -/
def Makes (E : Ext) (s : Server) (x : Stored) (op : KVOp) : Prop :=
  ∃ id c, s.encryptBucketEntry E x.username x.password x.flag x.metadata = .ok c ∧ s.bucketID E x.username = .ok id ∧
    op = .append (BucketIDToHex id) c

section
variable {E : Ext} {s : Server}

theorem variantCalls_makes (u m : Bytes) (id : UInt32) (hid : s.bucketID E u = .ok id) (vs : List Bytes) :
    ∃ vs', vs' <+: vs ∧ ((variantCalls E s u m (BucketIDToHex id) vs).2 = true → vs' = vs) ∧
      List.Forall₂ (Makes E s) (vs'.map fun v => ⟨u, v, 2, m⟩) (variantCalls E s u m (BucketIDToHex id) vs).1 := by
  induction vs with
  | nil => exact ⟨[], List.prefix_rfl, (fun _ => rfl), .nil⟩
  | cons v vs ih =>
    obtain ⟨vs', h1, h2, h3⟩ := ih
    unfold variantCalls
    cases hc : s.encryptBucketEntry E u v MetadataSimilarPassword m with
    | ok c =>
      exact ⟨v :: vs', List.cons_prefix_cons.mpr ⟨rfl, h1⟩, (fun h => congrArg _ (h2 h)), .cons ⟨id, c, hc, hid, rfl⟩ h3⟩
    | err e => exact ⟨[], List.nil_prefix, (fun h => nomatch h), .nil⟩
    | panic e => exact ⟨[], List.nil_prefix, (fun h => nomatch h), .nil⟩

theorem insertCalls_makes (r : Record) : ∃ S, List.Forall₂ (Makes E s) S (insertCalls E s r) ∧
    (∀ x ∈ S, r.MayStore x) ∧ (insertRes E s r = .ok () →
      ∃ vs, Mutator.mutate Mutator.dasRules r.password r.numVariants = .ok vs ∧ S = r.stored vs) := by
  unfold insertCalls insertRes Record.MayStore
  generalize Mutator.mutate Mutator.dasRules r.password r.numVariants = mu
  cases hid : s.bucketID E r.username with
  | err e => exact ⟨[], .nil, (by simp), fun h => nomatch h⟩
  | panic e => exact ⟨[], .nil, (by simp), fun h => nomatch h⟩
  | ok id =>
    dsimp only
    show ∃ S, _ ∧ _ ∧ (Res.bind (s.encryptBucketEntry E _ _ _ _) _ = _ → _)
    cases hc : s.encryptBucketEntry E r.username r.password MetadataBreachedPassword r.metadata with
    | err e => exact ⟨[], .nil, (by simp), fun h => nomatch h⟩
    | panic e => exact ⟨[], .nil, (by simp), fun h => nomatch h⟩
    | ok c =>
      dsimp only
      have h0 : Makes E s ⟨r.username, r.password, 1, r.metadata⟩ (.append (BucketIDToHex id) c) := ⟨id, c, hc, hid, rfl⟩
      cases mu with
      | err e => exact ⟨[_], .cons h0 .nil, (fun x hx => .inl (List.mem_singleton.mp hx)), fun h => nomatch h⟩
      | panic e => exact ⟨[_], .cons h0 .nil, (fun x hx => .inl (List.mem_singleton.mp hx)), fun h => nomatch h⟩
      | ok vs =>
        dsimp only
        obtain ⟨vs', h1, h2, h3⟩ := variantCalls_makes (E := E) (s := s) r.username r.metadata id hid vs
        have hv := (variantCalls_run (E := E) (s := s) r.username r.metadata (BucketIDToHex id) vs newKVStore).2
        have hsub : ∀ x ∈ vs'.map (fun v => (⟨r.username, v, 2, r.metadata⟩ : Stored)), x ∈ r.stored vs := by
          intro x hx
          obtain ⟨v, hv, rfl⟩ := List.mem_map.mp hx
          unfold Record.stored
          exact List.mem_append_left _ (List.mem_append_right _ (List.mem_map_of_mem (h1.subset hv)))
        show ∃ S, _ ∧ _ ∧ (Res.bind (insertVariants E s r.username r.metadata (BucketIDToHex id) vs newKVStore).2 _ = _ → _)
        by_cases hcomp : (variantCalls E s r.username r.metadata (BucketIDToHex id) vs).2 = true
        · rw [if_pos hcomp, hv.mpr hcomp]
          obtain rfl := h2 hcomp
          have hu : ∃ S, List.Forall₂ (Makes E s) S (usernameCalls E s r.username r.metadata (BucketIDToHex id) r.withUsername) ∧
              (∀ x ∈ S, x ∈ (if r.withUsername then [(⟨r.username, [], 3, r.metadata⟩ : Stored)] else [])) ∧
              ((insertUsername E s r.username r.metadata (BucketIDToHex id) r.withUsername newKVStore).2 = .ok () →
                S = if r.withUsername then [⟨r.username, [], 3, r.metadata⟩] else []) := by
            unfold usernameCalls insertUsername
            cases r.withUsername with
            | false => exact ⟨[], .nil, (fun x hx => nomatch hx), fun _ => rfl⟩
            | true =>
              rw [if_pos rfl, if_pos rfl, if_pos rfl]
              cases hx : s.encryptBucketEntry E r.username [] MetadataBreachedUsername r.metadata with
              | ok c => exact ⟨[_], .cons ⟨id, c, hx, hid, rfl⟩ .nil, (fun x hx => hx), fun _ => rfl⟩
              | err e => exact ⟨[], .nil, (fun x hx => nomatch hx), fun h => nomatch h⟩
              | panic e => exact ⟨[], .nil, (fun x hx => nomatch hx), fun h => nomatch h⟩
          obtain ⟨S, g1, g2, g3⟩ := hu
          refine ⟨_ :: (_ ++ S), .cons h0 (List.rel_append h3 g1), fun x hx => ?_, fun hok => ⟨_, rfl, ?_⟩⟩
          · rcases List.mem_cons.mp hx with rfl | hx
            · exact .inl rfl
            · refine .inr ⟨_, rfl, ?_⟩
              rcases List.mem_append.mp hx with hx | hx
              · exact hsub x hx
              · exact List.mem_append_right _ (g2 x hx)
          · rw [g3 hok]; rfl
        · rw [if_neg hcomp, List.append_nil]
          refine ⟨_ :: _, .cons h0 h3, fun x hx => ?_, fun hok => ?_⟩
          · rcases List.mem_cons.mp hx with rfl | hx
            · exact .inl rfl
            · exact .inr ⟨_, rfl, hsub x hx⟩
          · refine absurd (hv.mp ?_) hcomp
            generalize (insertVariants E s r.username r.metadata (BucketIDToHex id) vs newKVStore).2 = z at hok
            cases z with
            | ok u => rfl
            | err e => cases hok
            | panic e => cases hok

theorem loadCalls_makes (rs : List Record) : ∃ S, List.Forall₂ (Makes E s) S (loadCalls E s rs) ∧
    (∀ x ∈ S, ∃ r ∈ rs, r.MayStore x) ∧
    ((∃ n m z, loadOutcome E s rs n m = .ok z) → ∀ r ∈ rs, insertRes E s r = .ok () →
      ∃ vs, Mutator.mutate Mutator.dasRules r.password r.numVariants = .ok vs ∧ ∀ x ∈ r.stored vs, x ∈ S) := by
  induction rs with
  | nil => exact ⟨[], .nil, (fun x hx => nomatch hx), fun _ r hr => nomatch hr⟩
  | cons r rs ih =>
    obtain ⟨S, h1, h2, h3⟩ := ih
    obtain ⟨S0, g1, g2, g3⟩ := insertCalls_makes (E := E) (s := s) r
    unfold loadCalls loadOutcome
    rw [insertRecord_res]
    have hin : ∀ x ∈ S0, ∃ r' ∈ r :: rs, r'.MayStore x := fun x hx => ⟨r, by simp, g2 x hx⟩
    have both : ∀ T, (∀ x ∈ T, ∃ r ∈ rs, r.MayStore x) → ∀ x ∈ S0 ++ T, ∃ r' ∈ r :: rs, r'.MayStore x := by
      intro T hT x hx
      rcases List.mem_append.mp hx with hx | hx
      · exact hin x hx
      · obtain ⟨r', hr', hm⟩ := hT x hx
        exact ⟨r', List.mem_cons_of_mem _ hr', hm⟩
    have fin : (∃ n m z, loadOutcome E s rs n m = .ok z) → ∀ r' ∈ r :: rs, insertRes E s r' = .ok () →
        ∃ vs, Mutator.mutate Mutator.dasRules r'.password r'.numVariants = .ok vs ∧ ∀ x ∈ r'.stored vs, x ∈ S0 ++ S := by
      intro he r' hr' hok
      rcases List.mem_cons.mp hr' with rfl | hr'
      · obtain ⟨vs, e1, e2⟩ := g3 hok
        exact ⟨vs, e1, fun x hx => List.mem_append_left _ (by rw [e2]; exact hx)⟩
      · obtain ⟨vs, e1, e2⟩ := h3 he r' hr' hok
        exact ⟨vs, e1, fun x hx => List.mem_append_right _ (e2 x hx)⟩
    cases hres : insertRes E s r with
    | ok u => exact ⟨_, List.rel_append g1 h1, both _ h2, fun ⟨n, m, z, e⟩ => fin ⟨n + 1, m, z, e⟩⟩
    | err e => exact ⟨_, List.rel_append g1 h1, both _ h2, fun ⟨n, m, z, e⟩ => fin ⟨n, m + 1, z, e⟩⟩
    | panic e => exact ⟨S0 ++ [], List.rel_append g1 .nil, both _ (by simp), fun ⟨n, m, z, e⟩ => nomatch e⟩

theorem forall₂_get {α β : Type} {R : α → β → Prop} : ∀ {l : List α} {l' : List β}, List.Forall₂ R l l' →
    ∀ (n : Nat) (y : β), l'[n]? = some y → ∃ x, l[n]? = some x ∧ R x y
  | _, _, .nil, n, y, h => by simp at h
  | _, _, .cons (a := a) h0 ht, 0, y, h => ⟨a, rfl, by
      have : _ = y := Option.some.inj h
      exact this ▸ h0⟩
  | _, _, .cons h0 ht, n + 1, y, h => forall₂_get ht n y h

variable {ι : Type} [DecidableEq ι]

/-- The store after a log is one that a history of inserts and single entries leads to, in which each goroutine stores
its credentials in order. -/
theorem log_history {jobsV : ι → JobV} (S : ι → List Stored)
    (hS : ∀ t, (∃ rs, jobsV t = .load rs ∧ List.Forall₂ (Makes E s) (S t) (loadCalls E s rs)) ∨
      ((∀ rs, jobsV t ≠ .load rs) ∧ S t = [])) (log : List (LogEntry ι))
    (hc : ∀ t, (traceOf t log).map Prod.fst <+: (jobsV t).calls E s) :
    ∃ db, History E s (newKVStore.run (log.map fun e => e.2.1)).1 db ∧
      (∀ x ∈ db, ∃ t, x ∈ S t ∧ traceOf t log ≠ []) ∧ ∀ t, List.Sublist ((S t).take (traceOf t log).length) db := by
  induction log using List.reverseRecOn with
  | nil => exact ⟨[], .start, (fun x hx => nomatch hx), fun t => by simp [traceOf]⟩
  | append_singleton log e ih =>
    obtain ⟨u, op, b⟩ := e
    obtain ⟨db, h1, h2, h3⟩ := ih fun t => (trace_mono (List.prefix_append _ _) t).trans (hc t)
    have hcu := hc u
    have htr : traceOf u (log ++ [(u, op, b)]) = traceOf u log ++ [(op, b)] := by
      rw [traceOf_snoc, if_pos rfl]
    have hother : ∀ t, t ≠ u → traceOf t (log ++ [(u, op, b)]) = traceOf t log := fun t ht => by
      rw [traceOf_snoc, if_neg (fun h => ht h.symm)]
    rw [htr, List.map_append] at hcu
    rw [List.map_append, run_append]
    have hrun : ∀ kv : KV, (kv.run (List.map (fun e : LogEntry ι => e.2.1) [(u, op, b)])).1 = (kv.call op).1 := fun kv => rfl
    rw [hrun]
    rcases hS u with ⟨rs, hload, hmk⟩ | ⟨hno, hnil⟩
    · rw [hload] at hcu
      have hcu : (traceOf u log).map Prod.fst ++ [op] <+: loadCalls E s rs := hcu
      obtain ⟨rest, hrest⟩ := hcu
      have hget : (loadCalls E s rs)[(traceOf u log).length]? = some op := by
        rw [← hrest]; simp
      obtain ⟨x, hx, id, c, e1, e2, rfl⟩ := forall₂_get hmk _ _ hget
      refine ⟨db ++ [x], .entry x.username x.password x.flag x.metadata c id h1 e1 e2, fun y hy => ?_, fun t => ?_⟩
      · rcases List.mem_append.mp hy with hy | hy
        · obtain ⟨t, g1, g2⟩ := h2 y hy
          refine ⟨t, g1, ?_⟩
          by_cases ht : t = u
          · subst ht; rw [htr]; simp
          · rw [hother t ht]; exact g2
        · rw [List.mem_singleton.mp hy]
          exact ⟨u, List.mem_of_getElem? hx, by rw [htr]; simp⟩
      · by_cases ht : t = u
        · subst ht
          rw [htr, List.length_append, List.length_singleton, List.take_add_one, hx]
          exact (h3 t).append (List.Sublist.refl _)
        · rw [hother t ht]
          exact (h3 t).trans (List.sublist_append_left _ _)
    · have hop : ∃ id, op = .get id := by
        have hin := hcu.subset (List.mem_append_right _ (List.mem_singleton.mpr rfl))
        cases hq : jobsV u with
        | load rs => exact absurd hq (hno rs)
        | reply q =>
          rw [hq] at hin
          exact ⟨_, List.mem_singleton.mp hin⟩
        | serve stale path body =>
          rw [hq] at hin
          unfold JobV.calls at hin
          dsimp only at hin
          split at hin
          · exact ⟨_, List.mem_singleton.mp hin⟩
          · cases hin
      obtain ⟨id, rfl⟩ := hop
      refine ⟨db, h1, fun y hy => ?_, fun t => ?_⟩
      · obtain ⟨t, g1, g2⟩ := h2 y hy
        refine ⟨t, g1, ?_⟩
        by_cases ht : t = u
        · subst ht; rw [hnil] at g1; cases g1
        · rw [hother t ht]; exact g2
      · by_cases ht : t = u
        · subst ht; rw [hnil]; simp
        · rw [hother t ht]; exact h3 t

end

/-! ### Queries -/

section
variable {ι : Type} [DecidableEq ι] {E : Ext} {cfg : ServerConfig} {s : Server} {c : Client}

/-- The credentials that the goroutines store. -/
theorem stores_exist (E : Ext) (s : Server) (jobsV : ι → JobV) : ∃ S : ι → List Stored,
    (∀ t, (∃ rs, jobsV t = .load rs ∧ List.Forall₂ (Makes E s) (S t) (loadCalls E s rs)) ∨
      ((∀ rs, jobsV t ≠ .load rs) ∧ S t = [])) ∧
    (∀ t, ∀ x ∈ S t, ∃ rs, jobsV t = .load rs ∧ ∃ r ∈ rs, r.MayStore x) ∧
    ∀ t rs, jobsV t = .load rs → (∃ n m z, loadOutcome E s rs n m = .ok z) → ∀ r ∈ rs, insertRes E s r = .ok () →
      ∃ vs, Mutator.mutate Mutator.dasRules r.password r.numVariants = .ok vs ∧ ∀ x ∈ r.stored vs, x ∈ S t := by
  let S : ι → List Stored := fun t => match jobsV t with
    | .load rs => Classical.choose (loadCalls_makes (E := E) (s := s) rs)
    | _ => []
  have spec := fun rs => Classical.choose_spec (loadCalls_makes (E := E) (s := s) rs)
  have hload : ∀ t rs, jobsV t = .load rs → S t = Classical.choose (loadCalls_makes (E := E) (s := s) rs) := by
    intro t rs h
    show (match jobsV t with
      | .load rs => Classical.choose (loadCalls_makes (E := E) (s := s) rs)
      | _ => []) = _
    rw [h]
  have hno : ∀ t, (∀ rs, jobsV t ≠ .load rs) → S t = [] := by
    intro t h
    show (match jobsV t with
      | .load rs => Classical.choose (loadCalls_makes (E := E) (s := s) rs)
      | _ => []) = _
    cases hq : jobsV t with
    | load rs => exact absurd hq (h rs)
    | reply q => rfl
    | serve a b c => rfl
  refine ⟨S, fun t => ?_, fun t x hx => ?_, fun t rs h => ?_⟩
  · by_cases h : ∃ rs, jobsV t = .load rs
    · obtain ⟨rs, h⟩ := h
      exact .inl ⟨rs, h, by rw [hload t rs h]; exact (spec rs).1⟩
    · have h : ∀ rs, jobsV t ≠ .load rs := fun rs e => h ⟨rs, e⟩
      exact .inr ⟨h, hno t h⟩
  · by_cases h : ∃ rs, jobsV t = .load rs
    · obtain ⟨rs, h⟩ := h
      exact ⟨rs, h, (spec rs).2.1 x (by rw [← hload t rs h]; exact hx)⟩
    · have h : ∀ rs, jobsV t ≠ .load rs := fun rs e => h ⟨rs, e⟩
      rw [hno t h] at hx; cases hx
  · rw [hload t rs h]
    exact (spec rs).2.2

/-- The reply that a client sees is the one it gets from an idle server with the same store. -/
theorem query_seen (cfg : ServerConfig) (hc : NewClient E cfg.toConfig = .ok c) (s : Server) (kv : KV)
    (stale : Nat → Nat → UInt8) (u p : Bytes) (rand : (S : Suite) → ZMod S.q) (req : ClientRequest)
    (ctx : ClientRequestContext) (hreq : c.request E u p (rand c.suite) = .ok (req, ctx)) (path : GoString) :
    Query E cfg.toConfig (fun _ => replySeen (servedOf (serve s kv stale path (some req.marshalJSON)))) u p rand =
      Query E cfg.toConfig (deliver s kv stale path) u p rand := by
  unfold Query
  rw [hc]
  dsimp only
  rw [hreq]
  dsimp only
  have : replySeen (servedOf (serve s kv stale path (some req.marshalJSON))) = deliver s kv stale path req.marshalJSON := by
    unfold deliver
    generalize serve s kv stale path (some req.marshalJSON) = x
    rcases x with - | (w | e | q) <;> rfl
  rw [this]

/-- C72: no false negatives on a busy server: a client whose request reaches the server after some goroutine has loaded
its records finds every credential of a record that could be inserted: its password, all variants of it, and (if asked
for) the empty password, whatever else is loaded meanwhile by other goroutines, and however many requests are answered. -/
theorem C72_no_false_negative (hc : NewClient E cfg.toConfig = .ok c) (hs : NewServer E cfg = .ok s)
    (hlen : s.suite.elemLen = 33) (h : Heap) (jobs : ι → JobH) (jobsV : ι → JobV)
    (hj : ∀ t, JobShows h.mem (jobs t) (jobsV t)) (run : Nat → Srv ι) (r : IsRun E s h jobs run)
    -- a goroutine that has loaded its records
    (t : ι) (rs : List Record) (ht : jobsV t = .load rs) (j n m : Nat) (hd : (run j).code t = .done (.ok (.loaded n m)))
    -- one of its records, and a credential that this stores
    (rec : Record) (hrec : rec ∈ rs) (hok : (insertRecord E s rec newKVStore).2 = .ok ()) (p : Bytes)
    (hp : p = rec.password ∨ (∃ vs, Mutator.mutate Mutator.dasRules rec.password rec.numVariants = .ok vs ∧ p ∈ vs) ∨
      (p = [] ∧ rec.withUsername = true))
    -- a client that asks for it, after that
    (rand : (S : Suite) → ZMod S.q) (hr : rand c.suite ≠ 0)
    (he : c.suite.hashToElement (Spec.oprfInput E cfg.slowHasherID rec.username p) ≠ 0) (req : ClientRequest)
    (ctx : ClientRequestContext) (hreq : c.request E rec.username p (rand c.suite) = .ok (req, ctx)) (u : ι)
    (stale : Nat → Nat → UInt8) (hu : jobsV u = .serve stale (ascii "/evaluate") (some req.marshalJSON))
    (hb : ∀ i ≤ j, (run i).code u = (run 0).code u) (k : Nat) (hjk : j ≤ k) (out : Res JobOut)
    (hout : (run k).code u = .done out) :
    ∃ status metadata, Query E cfg.toConfig (fun _ => replySeen out) rec.username p rand =
      .ret status (some metadata) none := by
  obtain ⟨logs, hl, hx⟩ := C71_log E s h jobs jobsV hj run r
  obtain ⟨log, h1, h2, h3⟩ := C72_outcome E s h jobs jobsV run r logs hl hx u stale _ _ hu k out hout j hjk hb
  obtain ⟨S, hS, -, hS2⟩ := stores_exist E s jobsV
  have hcl : ∀ v, (traceOf v log).map Prod.fst <+: (jobsV v).calls E s := fun v => (trace_mono h2 v).trans ((hx k).calls v)
  obtain ⟨db, hh, -, hdb⟩ := log_history S hS log hcl
  have hend := (hx j).ends t _ hd
  rw [ht] at hend
  obtain ⟨hall, ho⟩ := load_ends hend
  have hall' : (traceOf t log).map Prod.fst = loadCalls E s rs := by
    have h4 := trace_mono h1 t
    have h5 := hcl t
    rw [ht] at h5
    rw [hall] at h4
    exact (h4.eq_of_length (le_antisymm h4.length_le h5.length_le)).symm
  have hsub : ∀ x ∈ S t, x ∈ db := by
    intro x hx
    refine (hdb t).subset ?_
    have : (S t).length ≤ (traceOf t log).length := by
      rcases hS t with ⟨rs', e, hf⟩ | ⟨hno, -⟩
      · rw [ht] at e
        cases e
        rw [hf.length_eq, ← hall', List.length_map]
      · exact absurd ht (hno rs)
    rw [List.take_of_length_le this]; exact hx
  rw [insertRecord_res] at hok
  obtain ⟨vs, hvs, hst⟩ := hS2 t rs ht ⟨_, _, _, ho⟩ rec hrec hok
  have key : ∃ f, (⟨rec.username, p, f, rec.metadata⟩ : Stored) ∈ db := by
    have : ∃ f, (⟨rec.username, p, f, rec.metadata⟩ : Stored) ∈ rec.stored vs := by
      unfold Record.stored
      rcases hp with rfl | ⟨vs', e, hp⟩ | ⟨rfl, hw⟩
      · exact ⟨1, List.mem_append_left _ (List.mem_append_left _ (List.mem_singleton.mpr rfl))⟩
      · obtain rfl : vs = vs' := Res.ok.inj (hvs.symm.trans e)
        exact ⟨2, List.mem_append_left _ (List.mem_append_right _ (List.mem_map.mpr ⟨p, hp, rfl⟩))⟩
      · exact ⟨3, List.mem_append_right _ (by rw [if_pos hw]; exact List.mem_singleton.mpr rfl)⟩
    obtain ⟨f, hf⟩ := this
    exact ⟨f, hsub _ (hst _ hf)⟩
  obtain ⟨f, hf⟩ := key
  have htw := (history_invariant hs hh).2.2 (List.ne_nil_of_mem hf)
  have e := h3 (newKVStore.run (log.map fun e => e.2.1)).1 fun id b hb => Res.ok.inj (C46_map _ id b hb)
  rw [e, query_seen cfg hc s _ stale _ p rand req ctx hreq, C54_query_eq_exchange hc hs hlen htw _ stale _ p rand hr he]
  exact C26_no_false_negative hc hs hh _ hf _ hr

/-- C72: no false positives on a busy server: if a client is told that a credential has been breached, then a goroutine
that has begun by then stores this very credential, or one in the same bucket with the same 160-bit key tag. -/
theorem C72_no_false_positive (hc : NewClient E cfg.toConfig = .ok c) (hs : NewServer E cfg = .ok s)
    (hlen : s.suite.elemLen = 33) (htw : Spec.tweak s.suite s.privateKey ≠ 0) (h : Heap) (jobs : ι → JobH)
    (jobsV : ι → JobV) (hj : ∀ t, JobShows h.mem (jobs t) (jobsV t)) (run : Nat → Srv ι) (r : IsRun E s h jobs run)
    (user p : Bytes) (rand : (S : Suite) → ZMod S.q) (hr : rand c.suite ≠ 0)
    (he : c.suite.hashToElement (Spec.oprfInput E cfg.slowHasherID user p) ≠ 0) (req : ClientRequest)
    (ctx : ClientRequestContext) (hreq : c.request E user p (rand c.suite) = .ok (req, ctx)) (u : ι)
    (stale : Nat → Nat → UInt8) (hu : jobsV u = .serve stale (ascii "/evaluate") (some req.marshalJSON)) (k : Nat)
    (out : Res JobOut) (hout : (run k).code u = .done out) (status : BreachStatus) (metadata : Bytes) (err : Option Err)
    (hq : Query E cfg.toConfig (fun _ => replySeen out) user p rand = .ret status (some metadata) err) :
    ∃ t rs rec x, jobsV t = .load rs ∧ rec ∈ rs ∧ rec.MayStore x ∧ (∃ i ≤ k, (run i).code t ≠ (run 0).code t) ∧
      (x.username = user ∧ x.password = p ∨ TagCollision E s x user p) := by
  obtain ⟨logs, hl, hx⟩ := C71_log E s h jobs jobsV hj run r
  obtain ⟨log, -, h2, h3⟩ := C72_outcome E s h jobs jobsV run r logs hl hx u stale _ _ hu k out hout 0 (Nat.zero_le k)
    (fun i hi => by rw [Nat.le_zero.mp hi])
  obtain ⟨S, hS, hS1, -⟩ := stores_exist E s jobsV
  obtain ⟨db, hh, hdb, -⟩ := log_history S hS log fun v => (trace_mono h2 v).trans ((hx k).calls v)
  have e := h3 (newKVStore.run (log.map fun e => e.2.1)).1 fun id b hb => Res.ok.inj (C46_map _ id b hb)
  rw [e, query_seen cfg hc s _ stale _ p rand req ctx hreq, C54_query_eq_exchange hc hs hlen htw _ stale _ p rand hr he] at hq
  have src : ∀ x ∈ db, ∃ t rs rec, jobsV t = .load rs ∧ rec ∈ rs ∧ rec.MayStore x ∧ ∃ i ≤ k, (run i).code t ≠ (run 0).code t := by
    intro x hxdb
    obtain ⟨t, g1, g2⟩ := hdb x hxdb
    obtain ⟨rs, g3, rec, g4, g5⟩ := hS1 t x g1
    refine ⟨t, rs, rec, g3, g4, g5, ?_⟩
    by_contra hno
    refine g2 ?_
    have hst := hl.still k (t := t) fun i hi => by
      by_contra hne
      exact hno ⟨i, hi, hne⟩
    have := trace_mono h2 t
    rw [hst] at this
    simpa using List.prefix_nil.mp this
  rcases C27_no_false_positive hc hs hh user p _ hr status metadata err hq with ⟨x, hxdb, hxe⟩ | ⟨x, hxdb, hxe⟩
  · obtain ⟨t, rs, rec, g1, g2, g3, g4⟩ := src x hxdb
    exact ⟨t, rs, rec, x, g1, g2, g3, g4, .inl hxe⟩
  · obtain ⟨t, rs, rec, g1, g2, g3, g4⟩ := src x hxdb
    exact ⟨t, rs, rec, x, g1, g2, g3, g4, .inr hxe⟩

theorem loading_history (hs : NewServer E cfg = .ok s) (rs : List Record) : ∀ (kv : KV) (db : List Stored), History E s kv db →
    ∀ n m z, loadOutcome E s rs n m = .ok z →
      History E s (rs.foldl (fun kv r => (insertRecord E s r kv).1) kv) (db ++ storedBy E s rs) := by
  induction rs with
  | nil => intro kv db h n m z hz; rw [show storedBy E s [] = [] from rfl, List.append_nil]; exact h
  | cons r rs ih =>
    intro kv db h n m z hz
    have hcons : storedBy E s (r :: rs) = r.inserts E s ++ storedBy E s rs := List.flatMap_cons ..
    rw [hcons, List.foldl_cons, ← List.append_assoc]
    unfold Record.inserts
    unfold loadOutcome at hz
    have hsame : (insertRecord E s r kv).2 = (insertRecord E s r newKVStore).2 := by
      rw [insertRecord_res, insertRecord_res]
    cases hres : (insertRecord E s r newKVStore).2 with
    | panic p => rw [hres] at hz; cases hz
    | err e =>
      rw [hres] at hz
      refine ih _ _ ?_ _ _ _ hz
      rw [List.append_nil]
      exact History.refused r e h (Prod.ext rfl (hsame.trans hres))
    | ok x =>
      rw [hres] at hz
      have hins : insertRecord E s r kv = ((insertRecord E s r kv).1, .ok ()) := Prod.ext rfl (hsame.trans hres)
      obtain ⟨-, vs, -, -, -, hvs, -⟩ := C43_insert_appends hs r kv _ hins
      rw [hvs]
      exact ih _ _ (History.inserted r vs h hins hvs) _ _ _ hz

/-- C72: end to end: when the server has loaded its records, every client whose request comes then is told exactly what
looking its credential up in the list of stored credentials gives, however many requests are answered at the same time
(absent tag collisions with the credential asked for). -/
theorem C72_ideal_lookup (hc : NewClient E cfg.toConfig = .ok c) (hs : NewServer E cfg = .ok s)
    (hlen : s.suite.elemLen = 33) (htw : Spec.tweak s.suite s.privateKey ≠ 0) (h : Heap) (jobs : ι → JobH)
    (jobsV : ι → JobV) (hj : ∀ t, JobShows h.mem (jobs t) (jobsV t)) (run : Nat → Srv ι) (r : IsRun E s h jobs run)
    -- the goroutine that loads the records, and no other does
    (t : ι) (rs : List Record) (ht : jobsV t = .load rs) (others : ∀ u, u ≠ t → ∀ rs, jobsV u ≠ .load rs) (j n m : Nat)
    (hd : (run j).code t = .done (.ok (.loaded n m)))
    -- a client, after that
    (user p : Bytes) (rand : (S : Suite) → ZMod S.q) (hr : rand c.suite ≠ 0)
    (he : c.suite.hashToElement (Spec.oprfInput E cfg.slowHasherID user p) ≠ 0)
    (hno : ∀ x ∈ storedBy E s rs, ¬ TagCollision E s x user p) (req : ClientRequest)
    (ctx : ClientRequestContext) (hreq : c.request E user p (rand c.suite) = .ok (req, ctx)) (u : ι)
    (stale : Nat → Nat → UInt8) (hu : jobsV u = .serve stale (ascii "/evaluate") (some req.marshalJSON))
    (hb : ∀ i ≤ j, (run i).code u = (run 0).code u) (k : Nat) (hjk : j ≤ k) (out : Res JobOut)
    (hout : (run k).code u = .done out) :
    Query E cfg.toConfig (fun _ => replySeen out) user p rand =
      match lookup (storedBy E s rs) user p with
      | none => .ret NotInBreach none none
      | some x => .ret (MetadataType.toBreachStatus x.flag) (some x.metadata) none := by
  obtain ⟨logs, hl, hx⟩ := C71_log E s h jobs jobsV hj run r
  have hend := (hx j).ends t _ hd
  rw [ht] at hend
  obtain ⟨-, ho⟩ := load_ends hend
  have hh := loading_history hs rs newKVStore [] History.start _ _ _ ho
  rw [List.nil_append] at hh
  have hnp := (C02_request_panics_iff cfg.toConfig c hc user p (rand c.suite)).1
  rw [hreq] at hnp
  simp only [Res.isPanic_ok, false_iff] at hnp
  have hbits : cfg.toConfig.bucketIDBitSize = cfg.bucketIDBitSize := rfl
  rw [C72_serving E s h jobs jobsV hj run r t rs ht others j n m hd u stale _ _ hu hb k hjk out hout,
    query_seen cfg hc s _ stale _ p rand req ctx hreq]
  exact C54_ideal_lookup hc hs hlen htw hh stale user p rand hr he (by omega) (by omega) (by omega) (by omega) hno

end

/-! ### Examples -/

def exOnly : Record := ⟨ascii "bob", ascii "hunter2", [], 0, false⟩
def exOnlyH : RecordH := ⟨⟨0, 0, 3, 3⟩, ⟨0, 4, 7, 10⟩, Slice.nil, 0, false⟩

/-- C72: a server loads a record, and then a client asks for the breached credential; the configuration is asked for,
too. Some schedule brings all goroutines to their end, and the client is told that the password is breached. -/
theorem C72_example (rand : (S : Suite) → ZMod S.q) (hr : rand client.suite ≠ 0) (stale : Nat → Nat → UInt8) :
    ∃ (h : Heap) (jobs : Fin 3 → JobH) (jobsV : Fin 3 → JobV) (run : _) (j k : Nat),
      (∀ t, JobShows h.mem (jobs t) (jobsV t)) ∧ IsRun ext server h jobs run ∧ j ≤ k ∧
      (run j).code 0 = .done (.ok (.loaded 1 0)) ∧
      (run k).code 2 = .done (.ok (.served (some (handleConfig server)))) ∧
      ∃ out, (run k).code 1 = .done out ∧
        Query ext cfg.toConfig (fun _ => replySeen out) (ascii "bob") (ascii "hunter2") rand =
          .ret InBreach (some []) none := by
  obtain ⟨h, -, -, hrec, -, -⟩ := ex_server 1
  have hrec : RecordShows h.mem exOnlyH exOnly := ⟨hrec.username, hrec.password, hrec.metadata, rfl, rfl⟩
  obtain ⟨kv', hkv⟩ := example_insert exOnly newKVStore (by decide) (by decide) (by decide) (by decide) (by decide)
  have hout : loadOutcome ext server [exOnly] 0 0 = .ok (1, 0) := by
    unfold loadOutcome
    rw [hkv]
    rfl
  obtain ⟨req, ctx, -, hreq, -⟩ := example_request newKVStore (ascii "bob") (ascii "hunter2") (by decide) (by decide)
    (rand client.suite)
  let jobs : Fin 3 → JobH := fun t => match t with
    | 0 => .load [exOnlyH]
    | 1 => .serve stale (ascii "/evaluate") (some req.marshalJSON)
    | 2 => .serve stale (ascii "/config") none
  let jobsV : Fin 3 → JobV := fun t => match t with
    | 0 => .load [exOnly]
    | 1 => .serve stale (ascii "/evaluate") (some req.marshalJSON)
    | 2 => .serve stale (ascii "/config") none
  have hj : ∀ t, JobShows h.mem (jobs t) (jobsV t) := fun t => match t with
    | 0 => .load _ _ (.cons hrec .nil)
    | 1 => .serve _ _ _
    | 2 => .serve _ _ _
  have ho : ∀ u, u ≠ 0 → ∀ rs, jobsV u ≠ .load rs := fun u => match u with
    | 0 => fun h => (h rfl).elim
    | 1 => fun _ _ h => nomatch h
    | 2 => fun _ _ h => nomatch h
  obtain ⟨run, j, k, r, hjk, ⟨x0, h0⟩, hstill, hd⟩ := server_first ext server h jobs jobsV hj 0
  obtain ⟨x1, h1⟩ := hd 1
  obtain ⟨x2, h2⟩ := hd 2
  obtain ⟨logs, hl, hx⟩ := C71_log ext server h jobs jobsV hj run r
  have e0 : (JobV.load [exOnly]).Ends ext server _ x0 := (hx j).ends 0 _ h0
  have h0 : (run j).code 0 = .done (.ok (.loaded 1 0)) := by rw [h0, e0.2, hout]; rfl
  have hroute : route (ascii "/config") = .config := by decide
  have hdb : storedBy ext server [exOnly] = [⟨ascii "bob", ascii "hunter2", 1, []⟩] := by
    obtain ⟨-, vs, -, -, -, hvs, -⟩ := C43_insert_appends newServer_eq exOnly newKVStore _ hkv
    have hlen := (C33_distinct _ _ _ hvs).1
    unfold storedBy
    rw [List.flatMap_cons, List.flatMap_nil, List.append_nil]
    unfold Record.inserts
    rw [hkv, hvs]
    have hnil : vs = [] := List.eq_nil_of_length_eq_zero (by
      have : exOnly.numVariants = 0 := rfl
      omega)
    rw [hnil]
    rfl
  refine ⟨h, jobs, jobsV, run, j, k, hj, r, hjk, h0, ?_, x1, h1, ?_⟩
  · have e := C72_serving ext server h jobs jobsV hj run r 0 [exOnly] rfl ho j 1 0 h0 2 stale (ascii "/config") none rfl
      (hstill 2 (by decide)) k hjk x2 h2
    unfold serve at e
    rw [hroute] at e
    rw [h2, e]
    rfl
  · rw [C72_ideal_lookup newClient_eq newServer_eq rfl example_tweak h jobs jobsV hj run r 0 [exOnly] rfl ho j 1 0 h0
      (ascii "bob") (ascii "hunter2") rand hr (toy_hash_ne _) (by
        rw [hdb]
        intro x hx hcol
        rw [List.mem_singleton.mp hx] at hcol
        exact hcol.1 ⟨rfl, rfl⟩) req ctx hreq 1 stale rfl (hstill 1 (by decide)) k hjk x1 h1, hdb]
    rfl

/-- C72_no_false_negative, C72_no_false_positive: while a second goroutine inserts records, too, a client is told of a
password that a first one has loaded. -/
example (rand : (S : Suite) → ZMod S.q) (hr : rand client.suite ≠ 0) (stale : Nat → Nat → UInt8) :
    ∃ (h : Heap) (jobs : Fin 3 → JobH) (jobsV : Fin 3 → JobV) (run : _) (j k : Nat),
      (∀ t, JobShows h.mem (jobs t) (jobsV t)) ∧ IsRun ext server h jobs run ∧ j ≤ k ∧
      (run j).code 0 = .done (.ok (.loaded 1 0)) ∧ jobsV 2 = .load [exRecord, exRecord] ∧
      ∃ out, (run k).code 1 = .done out ∧ (∃ status metadata,
        Query ext cfg.toConfig (fun _ => replySeen out) (ascii "bob") (ascii "hunter2") rand =
          .ret status (some metadata) none) ∧
      ∃ t rs rec x, jobsV t = .load rs ∧ rec ∈ rs ∧ rec.MayStore x ∧ (∃ i ≤ k, (run i).code t ≠ (run 0).code t) ∧
        (x.username = ascii "bob" ∧ x.password = ascii "hunter2" ∨
          TagCollision ext server x (ascii "bob") (ascii "hunter2")) := by
  obtain ⟨h, -, -, hrec, -, -⟩ := ex_server 1
  obtain ⟨kv', hkv⟩ := example_insert exRecord newKVStore (by decide) (by decide) (by decide) (by decide) (by decide)
  obtain ⟨req, ctx, -, hreq, -⟩ := example_request newKVStore (ascii "bob") (ascii "hunter2") (by decide) (by decide)
    (rand client.suite)
  let jobs : Fin 3 → JobH := fun t => match t with
    | 0 => .load [exRecordH]
    | 1 => .serve stale (ascii "/evaluate") (some req.marshalJSON)
    | 2 => .load [exRecordH, exRecordH]
  let jobsV : Fin 3 → JobV := fun t => match t with
    | 0 => .load [exRecord]
    | 1 => .serve stale (ascii "/evaluate") (some req.marshalJSON)
    | 2 => .load [exRecord, exRecord]
  have hj : ∀ t, JobShows h.mem (jobs t) (jobsV t) := fun t => match t with
    | 0 => .load _ _ (.cons hrec .nil)
    | 1 => .serve _ _ _
    | 2 => .load _ _ (.cons hrec (.cons hrec .nil))
  obtain ⟨run, j, k, r, hjk, ⟨x0, h0⟩, hstill, hd⟩ := server_first ext server h jobs jobsV hj 0
  obtain ⟨x1, h1⟩ := hd 1
  obtain ⟨logs, hl, hx⟩ := C71_log ext server h jobs jobsV hj run r
  have e0 : (JobV.load [exRecord]).Ends ext server _ x0 := (hx j).ends 0 _ h0
  have h0 : (run j).code 0 = .done (.ok (.loaded 1 0)) := by rw [h0, e0.2, ex_loadOutcome]; rfl
  obtain ⟨status, metadata, hq⟩ := C72_no_false_negative newClient_eq newServer_eq rfl h jobs jobsV hj run r 0 [exRecord]
    rfl j 1 0 h0 exRecord (by simp) (by rw [hkv]) _ (.inl rfl) rand hr (toy_hash_ne _) req ctx hreq 1 stale rfl
    (hstill 1 (by decide)) k hjk x1 h1
  exact ⟨h, jobs, jobsV, run, j, k, hj, r, hjk, h0, rfl, x1, h1, ⟨status, metadata, hq⟩,
    C72_no_false_positive newClient_eq newServer_eq rfl example_tweak h jobs jobsV hj run r _ _ rand hr (toy_hash_ne _) req
      ctx hreq 1 stale rfl k x1 h1 status metadata none hq⟩

end Migp.Props
