import Verif.Props.Witness
/-!
# Concrete cases for the hypotheses of the theorems, part 2: histories of inserts
-/
namespace Migp.Props
open Spec Example Mutator

/-- The record used below: password "abc", one variant, with the username entry. -/
def rec0 : Record := ⟨ascii "user", ascii "abc", ascii "A", 1, true⟩

theorem rec0_variants : mutate dasRules (ascii "abc") 1 = .ok [ascii "Abc"] := by decide +kernel

/-- A store in which the record has been inserted. -/
theorem example_history : ∃ kv, insertRecord ext server rec0 newKVStore = (kv, .ok ()) ∧
    History ext server kv [⟨ascii "user", ascii "abc", 1, ascii "A"⟩, ⟨ascii "user", ascii "Abc", 2, ascii "A"⟩,
      ⟨ascii "user", [], 3, ascii "A"⟩] := by
  obtain ⟨kv, h⟩ := example_insert rec0 newKVStore (by decide) (by decide) (by decide) (by decide) (by decide)
  exact ⟨kv, h, History.inserted _ _ .start h rec0_variants⟩

/-- C26_no_false_negative, C26_after_insert -/
example (r : ZMod client.suite.q) (hr : r ≠ 0) : ∃ kv, ∀ p ∈ [ascii "abc", ascii "Abc", []], ∃ status metadata,
    exchange ext client server kv (ascii "user") p r = .ret status (some metadata) none := by
  obtain ⟨kv, hi, -⟩ := example_history
  refine ⟨kv, fun p hp => C26_after_insert newClient_eq newServer_eq .start rec0 hi r hr p ?_⟩
  rcases List.mem_cons.mp hp with rfl | hp
  · exact .inl rfl
  rcases List.mem_cons.mp hp with rfl | hp
  · exact .inr (.inl ⟨_, rec0_variants, List.mem_singleton.mpr rfl⟩)
  · rw [List.mem_singleton] at hp
    exact .inr (.inr ⟨hp, rfl⟩)

/-- The tags of four passwords (computed with the real SHA-256, HMAC and HKDF). -/
theorem example_tags2 :
    keyTag ext.sha256 (entryKey ext Example.cfg server (ascii "user") (ascii "abc")) ≠
      keyTag ext.sha256 (entryKey ext Example.cfg server (ascii "user") []) ∧
    keyTag ext.sha256 (entryKey ext Example.cfg server (ascii "user") (ascii "Abc")) ≠
      keyTag ext.sha256 (entryKey ext Example.cfg server (ascii "user") []) ∧
    keyTag ext.sha256 (entryKey ext Example.cfg server (ascii "user") (ascii "ab")) ≠
      keyTag ext.sha256 (entryKey ext Example.cfg server (ascii "user") []) ∧
    keyTag ext.sha256 (entryKey ext Example.cfg server (ascii "user") (ascii "a")) ≠
      keyTag ext.sha256 (entryKey ext Example.cfg server (ascii "user") []) := by
  decide +kernel

/-- C28_ideal_lookup: no stored credential collides with the username query, so the answer is that of the
specification: the third entry. -/
example (r : ZMod client.suite.q) (hr : r ≠ 0) : ∃ kv,
    exchange ext client server kv (ascii "user") [] r = .ret UsernameInBreach (some (ascii "A")) none := by
  have hl : lookup [⟨ascii "user", ascii "abc", 1, ascii "A"⟩, ⟨ascii "user", ascii "Abc", 2, ascii "A"⟩,
      ⟨ascii "user", [], 3, ascii "A"⟩] (ascii "user") [] = some ⟨ascii "user", [], 3, ascii "A"⟩ := by
    decide +kernel
  obtain ⟨kv, -, hh⟩ := example_history
  refine ⟨kv, ?_⟩
  have h := C28_ideal_lookup newClient_eq newServer_eq hh (ascii "user") [] r (by decide) (by decide) (by decide)
    (by decide) example_tweak hr ?_
  · rw [h, hl]; rfl
  · intro x hx
    rcases List.mem_cons.mp hx with rfl | hx
    · exact example_no_collision _ _ _ _ (by decide) (by decide) example_tags2.1
    rcases List.mem_cons.mp hx with rfl | hx
    · exact example_no_collision _ _ _ _ (by decide) (by decide) example_tags2.2.1
    · rw [List.mem_singleton] at hx
      subst hx
      exact fun h => h.1 ⟨rfl, rfl⟩

/-- C27_no_false_positive, C29_inserts, C29_stable: a query that is answered with metadata. -/
example (r : ZMod client.suite.q) (hr : r ≠ 0) (recs : List Record) : ∃ kv status metadata,
    exchange ext client server kv (ascii "user") (ascii "Abc") r = .ret status (some metadata) none ∧
    exchange ext client server (recs.foldl (fun kv rec => (insertRecord ext server rec kv).1) kv) (ascii "user")
      (ascii "Abc") r = .ret status (some metadata) none := by
  obtain ⟨kv, -, hh⟩ := example_history
  obtain ⟨st, m, h⟩ := C26_no_false_negative newClient_eq newServer_eq hh ⟨ascii "user", ascii "Abc", 2, ascii "A"⟩
    (List.mem_cons_of_mem _ (List.mem_cons_self ..)) r hr
  exact ⟨kv, st, m, h, C29_inserts newClient_eq newServer_eq kv recs _ _ r st m h⟩

/-- C31_other_queries, C31_other_buckets: usernames of different buckets (computed with the real SHA-256). -/
example (r : ZMod client.suite.q) (kv : KV) (p : Bytes) :
    exchange ext client server (insertRecord ext server rec0 kv).1 (ascii "bob") p r =
      exchange ext client server kv (ascii "bob") p r :=
  C31_other_queries newClient_eq newServer_eq rec0 kv _ _ rfl (ascii "bob") p (by decide +kernel) r

/-- C32_twice, C32_reinsert -/
example (r : ZMod client.suite.q) (u p : Bytes) : ∃ kv₁ kv₂,
    insertRecord ext server rec0 newKVStore = (kv₁, .ok ()) ∧ insertRecord ext server rec0 kv₁ = (kv₂, .ok ()) ∧
    exchange ext client server kv₂ u p r = exchange ext client server kv₁ u p r := by
  obtain ⟨kv₁, h₁, -⟩ := example_history
  obtain ⟨kv₂, h₂⟩ := example_insert rec0 kv₁ (by decide) (by decide) (by decide) (by decide) (by decide)
  exact ⟨kv₁, kv₂, h₁, h₂, (C32_twice newClient_eq newServer_eq .start rec0 h₁ h₂ u p r).1⟩

/-- C19_other_forms_miss: a request in upper case is answered, with an empty bucket. -/
example : ∃ kv req resp, History ext server kv [⟨ascii "user", ascii "abc", 1, ascii "A"⟩,
      ⟨ascii "user", ascii "Abc", 2, ascii "A"⟩, ⟨ascii "user", [], 3, ascii "A"⟩] ∧
    req.bucketID = ascii "000ABCDE" ∧ server.handleRequest req kv.get = .ok resp ∧ resp.bucketContents = [] := by
  obtain ⟨kv, -, hh⟩ := example_history
  obtain ⟨req, h1, resp, h2⟩ := C19_accepted server example_tweak kv (ascii "000ABCDE")
    ⟨by decide, by decide⟩
  refine ⟨kv, req, resp, hh, h1, h2, C19_other_forms_miss newServer_eq hh req resp ?_ h2⟩
  rw [h1]
  decide

/-- C30_username_shadowed -/
example (r : ZMod client.suite.q) (hr : r ≠ 0) : ∃ kv,
    insertRecord ext server ⟨ascii "user", ascii "abc", ascii "A", 4, true⟩ newKVStore = (kv, .ok ()) ∧
    exchange ext client server kv (ascii "user") [] r = .ret SimilarInBreach (some (ascii "A")) none := by
  obtain ⟨kv, h⟩ := example_insert ⟨ascii "user", ascii "abc", ascii "A", 4, true⟩ newKVStore (by decide) (by decide)
    (by decide) (by decide) (by decide)
  refine ⟨kv, h, C30_username_shadowed newClient_eq newServer_eq _ _ 4 (by decide) kv h ?_ r hr⟩
  intro p hp f
  rcases List.mem_cons.mp hp with rfl | hp
  · exact example_no_collision _ _ _ _ (by decide) (by decide) example_tags2.1
  rcases List.mem_cons.mp hp with rfl | hp
  · exact example_no_collision _ _ _ _ (by decide) (by decide) example_tags2.2.1
  rcases List.mem_cons.mp hp with rfl | hp
  · exact example_no_collision _ _ _ _ (by decide) (by decide) example_tags2.2.2.1
  · rw [List.mem_singleton] at hp
    subst hp
    exact example_no_collision _ _ _ _ (by decide) (by decide) example_tags2.2.2.2

/-- C30_short_password_shadows -/
example (r : ZMod client.suite.q) (hr : r ≠ 0) : ∃ kv,
    insertRecord ext server ⟨ascii "user", ascii "abc", ascii "A", 4, true⟩ newKVStore = (kv, .ok ()) ∧
    exchange ext client server kv (ascii "user") [] r = .ret SimilarInBreach (some (ascii "A")) none := by
  obtain ⟨kv, h⟩ := example_insert ⟨ascii "user", ascii "abc", ascii "A", 4, true⟩ newKVStore (by decide) (by decide)
    (by decide) (by decide) (by decide)
  have hv : mutate dasRules (ascii "abc") 4 = .ok [ascii "Abc", ascii "ab", ascii "a", []] := by decide +kernel
  refine ⟨kv, h, C30_short_password_shadows newClient_eq newServer_eq _ _ _ (by decide) (by decide) 4 (by decide) kv _
    h hv ?_ r hr⟩
  intro x hx
  unfold Record.stored at hx
  dsimp only [List.map_cons, List.map_nil, List.cons_append, List.nil_append] at hx
  rcases List.mem_cons.mp hx with rfl | hx
  · exact example_no_collision _ _ _ _ (by decide) (by decide) example_tags2.1
  rcases List.mem_cons.mp hx with rfl | hx
  · exact example_no_collision _ _ _ _ (by decide) (by decide) example_tags2.2.1
  rcases List.mem_cons.mp hx with rfl | hx
  · exact example_no_collision _ _ _ _ (by decide) (by decide) example_tags2.2.2.1
  rcases List.mem_cons.mp hx with rfl | hx
  · exact example_no_collision _ _ _ _ (by decide) (by decide) example_tags2.2.2.2
  rcases List.mem_cons.mp hx with rfl | hx
  · exact fun h => h.1 ⟨rfl, rfl⟩
  · rw [List.mem_singleton.mp hx]
    exact fun h => h.1 ⟨rfl, rfl⟩

/-- C30_dummy_hides -/
example (r : ZMod client.suite.q) (hr : r ≠ 0) : ∃ kv,
    exchange ext client server kv (ascii "user") (ascii "abc") r = .ret NotInBreach (some [7]) none := by
  have hc := encryptBucketEntry_ok newServer_eq (ascii "user") (ascii "abc") MetadataDummy [7] (by decide) (by decide)
    (by decide) example_tweak (by decide)
  obtain ⟨id, hid⟩ : ∃ id, server.bucketID ext (ascii "user") = .ok id := by
    rcases bucketID_cases newServer_eq (ascii "user") with ⟨-, -, -, h⟩ | ⟨h, -⟩
    · exact h
    · exact absurd h (by decide)
  obtain ⟨kv, h⟩ := example_insert rec0 (newKVStore.append (BucketIDToHex id) _) (by decide) (by decide) (by decide)
    (by decide) (by decide)
  exact ⟨kv, C30_dummy_hides newClient_eq newServer_eq rec0 [7] _ id kv hc hid h r hr⟩

/-- C43_insert_appends, C43_prefix_always, C44_error_stores_nothing, C45_outcomes: an insert that succeeds, one that
fails and one that panics. -/
example : (∃ kv, insertRecord ext server rec0 newKVStore = (kv, .ok ())) ∧
    (∃ e, insertRecord ext server ⟨[], [], List.replicate 8161 0, 0, false⟩ newKVStore = (newKVStore, .err e)) ∧
    (insertRecord ext server ⟨[], [], [], -1, false⟩ newKVStore).2.IsPanic := by
  refine ⟨⟨_, example_history.choose_spec.1⟩, ?_, ?_⟩
  · have hlong : (insertRecord ext server ⟨[], [], List.replicate 8161 0, 0, false⟩ newKVStore).2.IsErr := by
      rw [(C45_outcomes newServer_eq _ _).2]
      exact ⟨⟨by decide, by decide, by simp, by simp⟩, .inl (by rw [List.length_replicate]; decide)⟩
    obtain ⟨e, he⟩ := hlong
    have h := C44_error_stores_nothing newServer_eq _ newKVStore _ e (Prod.ext rfl he)
    exact ⟨e, Prod.ext h he⟩
  · exact (C45_outcomes newServer_eq _ _).1.mpr (.inr ⟨by decide, example_tweak, .inl (by decide)⟩)

/-- C45_crash_stores: with a negative number of variants the entry of the password itself is stored before the crash. -/
example : ∃ kv' q id entry, insertRecord ext server ⟨ascii "user", ascii "password", [7], -1, true⟩ newKVStore = (kv', .panic q) ∧
    server.bucketID ext (ascii "user") = .ok id ∧
    server.encryptBucketEntry ext (ascii "user") (ascii "password") 1 [7] = .ok entry ∧
    kv'.get (BucketIDToHex id) = .ok entry := by
  obtain ⟨q, hq⟩ := (C45_outcomes (s := server) newServer_eq ⟨ascii "user", ascii "password", [7], -1, true⟩ newKVStore).1.mpr
    (.inr ⟨by decide, example_tweak, .inl (by decide)⟩)
  obtain ⟨kv', h⟩ : ∃ kv', insertRecord ext server ⟨ascii "user", ascii "password", [7], -1, true⟩ newKVStore = (kv', .panic q) :=
    ⟨_, Prod.ext rfl hq⟩
  refine ⟨kv', q, ?_⟩
  rcases C45_crash_stores newServer_eq _ _ _ q h with ⟨-, h1⟩ | ⟨id, stored, entries, old, h1, h2, h3, h4, h5, -⟩
  · exact absurd h1 (by decide)
  · rcases h2 with ⟨-, rfl⟩ | ⟨fit, v, rest, h2, -⟩
    · rcases entries with _ | ⟨entry, _ | ⟨e2, es⟩⟩
      · cases h3
      · obtain rfl : old = [] := (Res.ok.inj h4).symm
        refine ⟨id, entry, h, h1, (List.cons.inj h3).1, ?_⟩
        rw [h5, List.flatten_cons, List.flatten_nil, List.append_nil, List.nil_append]
      · exact absurd (congrArg List.length h3) (by simp)
    · exact absurd ((C37_panics_iff _ _).2.mp ⟨_, h2⟩).1 (by decide)

end Migp.Props
