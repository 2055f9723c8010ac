import Verif.Lemmas.Visible
import Verif.Lemmas.History
import Verif.Model.InsertCalls
import Verif.Props.Conc
/-!
# C49: concurrent inserts and requests
-/
namespace Migp.Props
open Migp.Spec

/-- C49: a `Get` that has returned, in any concurrent run in which nobody `Put`s to the key, returns a
concatenation of appended values: for every goroutine, in its program order and without gaps, comprising
all those whose `Append` had returned before the `Get` was called, and only such whose `Append` had been
called before the `Get` returned. -/
theorem C49_order (a b c : List Ev) (t : Nat) (k : GoString) (r : Bytes) (s : Conc)
    (he : Conc.Exec (a ++ .inv t (.get k) :: (b ++ .ret t r :: c)) s)
    (hb : ∀ r', Ev.ret t r' ∉ b)
    (hput : ∀ t' v, Ev.inv t' (.put k v) ∉ a ++ .inv t (.get k) :: (b ++ .ret t r :: c)) :
    ∃ es : List (Nat × Bytes), r = (es.map Prod.snd).flatten ∧ ∀ t',
      appendsTo k (completed t' a) <+: (es.filter (fun x => x.1 = t')).map Prod.snd ∧
      (es.filter (fun x => x.1 = t')).map Prod.snd <+: appendsTo k (invoked t' (a ++ b)) := by
  obtain ⟨l, h1, h2, h3⟩ := C48_linearizable _ _ he
  refine Conc.get_sees h2 h3 h1 hb ?_
  intro t' v hm
  rw [h1] at hm
  obtain ⟨e, hm, h⟩ := List.mem_filterMap.mp hm
  cases e with
  | ret t'' r' => cases h
  | inv t'' op =>
    by_cases ht : t'' = t'
    · simp only [ht, if_true, Option.some.injEq] at h
      subst h
      exact hput _ _ hm
    · simp [ht] at h

section
variable {E : Ext} {cfg : ServerConfig} {s : Server}

/-- Bytes made by `EncryptBucketEntry` are an entry. -/
theorem entry_of_encrypt (hs : NewServer E cfg = .ok s) (u p : Bytes) (flag : MetadataType) (m c : Bytes)
    (hf : flag.toNat ≤ 3) (h : s.encryptBucketEntry E u p flag m = .ok c) :
    ∃ e : RawEntry, e.WF ∧ c = e.bytes := by
  by_cases hl : 65536 < u.length ∨ 65536 < p.length
  · rw [encryptBucketEntry_panic s u p flag m hf hl] at h; cases h
  · have hu : u.length ≤ 65536 := by omega
    have hp : p.length ≤ 65536 := by omega
    by_cases ht : tweak s.suite s.privateKey = 0
    · rw [encryptBucketEntry_zero hs u p flag m hf hu hp ht] at h; cases h
    · by_cases hm : 8160 < m.length
      · rw [encryptBucketEntry_long hs u p flag m hf hu hp ht hm] at h; cases h
      · rw [encryptBucketEntry_ok hs u p flag m hf hu hp ht (by omega)] at h
        injection h with h
        refine ⟨storedRaw E cfg s ⟨u, p, flag, m⟩, storedRaw_wf E cfg s _ (by dsimp only; omega), ?_⟩
        rw [storedRaw_bytes E cfg s _ (by dsimp only; omega), ← h]
        rfl

theorem variantCalls_run (u m : Bytes) (hex : GoString) (vs : List Bytes) (kv : KV) :
    (insertVariants E s u m hex vs kv).1 = (kv.run (variantCalls E s u m hex vs).1).1 ∧
    ((insertVariants E s u m hex vs kv).2 = .ok () ↔ (variantCalls E s u m hex vs).2 = true) := by
  induction vs generalizing kv with
  | nil => exact ⟨rfl, by simp [insertVariants, variantCalls]⟩
  | cons v vs ih =>
    rw [insertVariants, variantCalls]
    cases h : s.encryptBucketEntry E u v MetadataSimilarPassword m with
    | ok c => exact ih _
    | err e => simp [KV.run]
    | panic p => simp [KV.run]

/-- C49: running the calls of `insert` has the effect of `insert`. -/
theorem C49_insert_calls (r : Record) (kv : KV) :
    (insertRecord E s r kv).1 = (kv.run (insertCalls E s r)).1 := by
  unfold insertRecord insert insertCalls
  cases hid : s.bucketID E r.username with
  | err e => rfl
  | panic p => rfl
  | ok id =>
    dsimp only
    cases hc : s.encryptBucketEntry E r.username r.password MetadataBreachedPassword r.metadata with
    | err e => rfl
    | panic p => rfl
    | ok c =>
      dsimp only
      cases hm : Mutator.mutate Mutator.dasRules r.password r.numVariants with
      | err e => rfl
      | panic p => rfl
      | ok vs =>
        dsimp only
        rw [KV.run]
        have hv := variantCalls_run (E := E) (s := s) r.username r.metadata (BucketIDToHex id) vs
          (kv.append (BucketIDToHex id) c)
        generalize hiv : insertVariants E s r.username r.metadata (BucketIDToHex id) vs
          (kv.append (BucketIDToHex id) c) = out at hv ⊢
        obtain ⟨kv', res⟩ := out
        obtain ⟨h1, h2⟩ := hv
        dsimp only at h1 h2
        cases res with
        | ok u =>
          rw [if_pos (h2.mp rfl)]
          show _ = ((kv.append (BucketIDToHex id) c).run _).1
          rw [run_append, ← h1]
          dsimp only
          unfold insertUsername usernameCalls
          cases r.withUsername with
          | false => rfl
          | true =>
            rw [if_pos rfl, if_pos rfl]
            cases s.encryptBucketEntry E r.username [] MetadataBreachedUsername r.metadata <;> rfl
        | err e =>
          rw [if_neg (by intro hh; have := h2.mpr hh; cases this), List.append_nil]
          exact h1
        | panic p =>
          rw [if_neg (by intro hh; have := h2.mpr hh; cases this), List.append_nil]
          exact h1

theorem variantCalls_entries (hs : NewServer E cfg = .ok s) (u m : Bytes) (hex : GoString)
    (vs : List Bytes) : ∀ op ∈ (variantCalls E s u m hex vs).1,
      ∃ e : RawEntry, e.WF ∧ op = .append hex e.bytes := by
  induction vs with
  | nil => intro op h; cases h
  | cons v vs ih =>
    rw [variantCalls]
    cases h : s.encryptBucketEntry E u v MetadataSimilarPassword m with
    | ok c =>
      intro op hop
      rcases List.mem_cons.mp hop with rfl | hop
      · obtain ⟨e, he, rfl⟩ := entry_of_encrypt hs u v _ m c (by decide) h
        exact ⟨e, he, rfl⟩
      · exact ih op hop
    | err e => intro op h; cases h
    | panic p => intro op h; cases h

/-- C49: every call that `insert` makes appends one whole entry to the bucket of the username. -/
theorem C49_insert_entries (hs : NewServer E cfg = .ok s) (r : Record) : ∀ op ∈ insertCalls E s r,
    ∃ (id : UInt32) (e : RawEntry), s.bucketID E r.username = .ok id ∧ e.WF ∧
      op = .append (BucketIDToHex id) e.bytes := by
  intro op hop
  unfold insertCalls at hop
  cases hid : s.bucketID E r.username with
  | err e => rw [hid] at hop; cases hop
  | panic p => rw [hid] at hop; cases hop
  | ok id =>
    rw [hid] at hop
    dsimp only at hop
    cases hc : s.encryptBucketEntry E r.username r.password MetadataBreachedPassword r.metadata with
    | err e => rw [hc] at hop; cases hop
    | panic p => rw [hc] at hop; cases hop
    | ok c =>
      rw [hc] at hop
      dsimp only at hop
      rcases List.mem_cons.mp hop with rfl | hop
      · obtain ⟨e, he, rfl⟩ := entry_of_encrypt hs _ _ _ _ _ (by decide) hc
        exact ⟨id, e, rfl, he, rfl⟩
      · cases hm : Mutator.mutate Mutator.dasRules r.password r.numVariants with
        | err e => rw [hm] at hop; cases hop
        | panic p => rw [hm] at hop; cases hop
        | ok vs =>
          rw [hm] at hop
          rcases List.mem_append.mp hop with hop | hop
          · obtain ⟨e, he, rfl⟩ := variantCalls_entries hs _ _ _ _ op hop
            exact ⟨id, e, rfl, he, rfl⟩
          · split at hop
            · unfold usernameCalls at hop
              split at hop
              · cases hx : s.encryptBucketEntry E r.username [] MetadataBreachedUsername r.metadata with
                | err e => rw [hx] at hop; cases hop
                | panic p => rw [hx] at hop; cases hop
                | ok c' =>
                  rw [hx] at hop
                  simp only [List.mem_singleton] at hop
                  obtain ⟨e, he, rfl⟩ := entry_of_encrypt hs _ _ _ _ _ (by decide) hx
                  exact ⟨id, e, rfl, he, hop⟩
              · cases hop
            · cases hop

/-- C49: a server whose goroutines insert records and answer requests, in any interleaving: the bucket
returned for a request is a concatenation of whole entries; for every goroutine they are an initial part of what
it appends to this bucket, in its program order, and comprise everything it had appended before the request. -/
theorem C49_whole_entries (hs : NewServer E cfg = .ok s) (a b c : List Ev) (t : Nat) (k : GoString)
    (r : Bytes) (st : Conc)
    (he : Conc.Exec (a ++ .inv t (.get k) :: (b ++ .ret t r :: c)) st)
    (hb : ∀ r', Ev.ret t r' ∉ b)
    (jobs : Nat → List Job)
    (hjobs : ∀ t', invoked t' (a ++ .inv t (.get k) :: (b ++ .ret t r :: c)) <+:
      ((jobs t').flatMap (Job.calls E s))) :
    ∃ es : List (Nat × RawEntry), (∀ e ∈ es, e.2.WF) ∧ r = bucket (es.map Prod.snd) ∧
      ∀ t', appendsTo k (completed t' a) <+:
          (es.filter (fun x => x.1 = t')).map (fun x => x.2.bytes) ∧
        (es.filter (fun x => x.1 = t')).map (fun x => x.2.bytes) <+:
          appendsTo k ((jobs t').flatMap (Job.calls E s)) := by
  have hcalls : ∀ t' op, op ∈ (jobs t').flatMap (Job.calls E s) →
      (∃ k', op = .get k') ∨ ∃ (k' : GoString) (e : RawEntry), e.WF ∧ op = .append k' e.bytes := by
    intro t' op hop
    obtain ⟨j, -, hj⟩ := List.mem_flatMap.mp hop
    cases j with
    | request k' => left; simp only [Job.calls, List.mem_singleton] at hj; exact ⟨k', hj⟩
    | insert r =>
      right
      obtain ⟨id, e, -, he, rfl⟩ := C49_insert_entries hs r op hj
      exact ⟨_, e, he, rfl⟩
  have hinv : ∀ t' op, Ev.inv t' op ∈ a ++ .inv t (.get k) :: (b ++ .ret t r :: c) →
      op ∈ (jobs t').flatMap (Job.calls E s) := by
    intro t' op hm
    refine (hjobs t').subset ?_
    exact List.mem_filterMap.mpr ⟨_, hm, by simp⟩
  obtain ⟨es, hr, hes⟩ := C49_order a b c t k r st he hb (by
    intro t' v hm
    rcases hcalls t' _ (hinv t' _ hm) with ⟨k', h⟩ | ⟨k', e, -, h⟩ <;> cases h)
  have hpre : ∀ t', appendsTo k (invoked t' (a ++ b)) <+:
      appendsTo k ((jobs t').flatMap (Job.calls E s)) := by
    intro t'
    refine List.IsPrefix.trans ?_ (Conc.filterMap_prefix _ (hjobs t'))
    unfold invoked appendsTo
    simp only [List.filterMap_append, List.filterMap_cons]
    by_cases h : t = t' <;> simp [h, ← List.append_assoc]
  -- every value is an entry
  have hval : ∀ x ∈ es, ∃ e : RawEntry, e.WF ∧ x.2 = e.bytes := by
    intro x hx
    have h1 : x.2 ∈ (es.filter (fun y => y.1 = x.1)).map Prod.snd :=
      List.mem_map.mpr ⟨x, List.mem_filter.mpr ⟨hx, by simp⟩, rfl⟩
    have h2 := (hpre x.1).subset ((hes x.1).2.subset h1)
    obtain ⟨op, hop, h3⟩ := List.mem_filterMap.mp h2
    rcases hcalls x.1 op hop with ⟨k', rfl⟩ | ⟨k', e, he, rfl⟩
    · cases h3
    · refine ⟨e, he, ?_⟩
      by_cases hk : k' = k
      · simpa [hk] using h3.symm
      · simp [hk] at h3
  have hlift : ∃ es' : List (Nat × RawEntry), (∀ e ∈ es', e.2.WF) ∧
      es = es'.map (fun x => (x.1, x.2.bytes)) := by
    clear hes hr
    induction es with
    | nil => exact ⟨[], by simp, rfl⟩
    | cons x es ih =>
      obtain ⟨es', h1, h2⟩ := ih (fun y hy => hval y (List.mem_cons_of_mem _ hy))
      obtain ⟨e, he, hx⟩ := hval x (by simp)
      refine ⟨(x.1, e) :: es', ?_, ?_⟩
      · intro y hy
        rcases List.mem_cons.mp hy with rfl | hy
        · exact he
        · exact h1 y hy
      · rw [List.map_cons, ← h2]
        obtain ⟨x1, x2⟩ := x
        dsimp only at hx ⊢
        rw [hx]
  obtain ⟨es', hwf, rfl⟩ := hlift
  refine ⟨es', hwf, ?_, fun t' => ?_⟩
  · rw [hr]
    unfold bucket
    simp [Function.comp_def]
  · have hf : ((es'.map (fun x => (x.1, x.2.bytes))).filter (fun x => x.1 = t')).map Prod.snd =
        (es'.filter (fun x => x.1 = t')).map (fun x => x.2.bytes) := by
      rw [List.filter_map, List.map_map]; rfl
    obtain ⟨h1, h2⟩ := hes t'
    rw [hf] at h1 h2
    exact ⟨h1, h2.trans (hpre t')⟩

end

/-- A run of the kind the theorems are about: goroutine 1 calls `Get` while goroutine 0 is in `Append`. -/
example : ∃ s, Conc.Exec ([.inv 0 (.append (ascii "k") [1])] ++ .inv 1 (.get (ascii "k")) ::
    ([.ret 0 []] ++ .ret 1 [1] :: [])) s := by
  have h0 := Conc.Exec.start
  have h1 := h0.step (.call _ 0 (.append (ascii "k") [1]) rfl)
  have h2 := h1.step (.lock _ 0 (.append (ascii "k") [1]) rfl rfl rfl rfl)
  have h3 := h2.step (.loadAppend _ 0 (ascii "k") [1] rfl)
  have h4 := h3.step (.call _ 1 (.get (ascii "k")) rfl)
  have h5 := h4.step (.beginAppend _ 0 (ascii "k") [1] [] (fun _ => [7]) rfl)
  have h6 := h5.step (.endWrite _ 0 (.append (ascii "k") [1]) (ascii "k") (fun _ => []) [1] rfl)
  have h7 := h6.step (.unlock _ 0 (.append (ascii "k") [1]) [] rfl rfl)
  have h8 := h7.step (.rlock _ 1 (.get (ascii "k")) rfl rfl rfl)
  have h9 := h8.step (.ret _ 0 (.append (ascii "k") [1]) [] rfl)
  have h10 := h9.step (.loadGet _ 1 (ascii "k") rfl)
  have h11 := h10.step (.retGet _ 1 (ascii "k") [1] rfl)
  have h12 := h11.step (.runlock _ 1 (.get (ascii "k")) [1] rfl rfl)
  have h13 := h12.step (.ret _ 1 (.get (ascii "k")) [1] rfl)
  exact ⟨_, h13⟩

end Migp.Props
