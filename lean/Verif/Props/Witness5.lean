import Verif.Props.Witness4
import Verif.Props.Programs
/-!
# Concrete cases for the hypotheses of the theorems, part 5: variants, the store, HTTP, the programs (C35-C60)
-/
namespace Migp.Props
open Spec Example Mutator Bufio

/-! ## C35-C40: variants and rules -/

/-- C35_complete_up_to_hash: the rule that makes "Abc" of "abc". -/
example : ∃ vs r, mutate dasRules (ascii "abc") 323 = .ok vs ∧ r ∈ dasRules ∧
    ∀ out, RuleResult r (ascii "abc") out →
      Murmur3.sum32 out = Murmur3.sum32 (ascii "abc") ∨ ∃ v ∈ vs, Murmur3.sum32 v = Murmur3.sum32 out := by
  obtain ⟨r, hr⟩ : ∃ r, r ∈ dasRules := ⟨dasRules.head (by decide), List.head_mem _⟩
  obtain ⟨vs, h⟩ := (C37_panics_iff (ascii "abc") 323).2.mpr (by decide)
  exact ⟨vs, r, h, hr, fun out ho => C35_complete_up_to_hash _ 323 vs (by decide) h r hr out ho⟩

/-- C38_ascii_table -/
example : applyRule ⟨ascii "c", 0, [], []⟩ (ascii "abc") = .ok (ascii "Abc") :=
  C38_ascii_table [] [] (ascii "bc") 97 (by decide)

/-- C39_total -/
example : ∃ out, applyRule ⟨ascii "i", -100, ascii "x", []⟩ (ascii "abc") = .ok out := C39_total _ (.inr (.inr rfl)) _ _ _ _

/-- C40_absent, C40_substitute -/
example : applyRule ⟨ascii "s", 0, ascii "x", ascii "y"⟩ (ascii "abc") = .ok (ascii "abc") ∧
    ∃ ps, Pieces (ascii "b") (ascii "abcb") ps ∧ (ascii "b").intercalate ps = ascii "abcb" ∧
      applyRule ⟨ascii "s", 0, ascii "b", ascii "yy"⟩ (ascii "abcb") = .ok ((ascii "yy").intercalate ps) := by
  refine ⟨C40_absent 0 (ascii "x") _ _ (by decide) ?_, ?_⟩
  · intro h
    exact absurd (h.subset (List.mem_cons_self (a := 120))) (by decide)
  · obtain ⟨ps, h1, -, h2, h3⟩ := C40_substitute 0 (ascii "b") (ascii "yy") (ascii "abcb") (by decide)
    exact ⟨ps, h1, h2, h3⟩

/-! ## C44-C49: the store -/

/-- C44_error_iff: metadata of 8161 bytes. -/
example (kv : KV) : (insertRecord ext server ⟨ascii "user", ascii "abc", List.replicate 8161 65, 1, true⟩ kv).2.IsErr ∧
    (insertRecord ext server ⟨ascii "user", ascii "abc", List.replicate 8161 65, 1, true⟩ kv).1 = kv := by
  have hp : ¬ (insertRecord ext server ⟨ascii "user", ascii "abc", List.replicate 8161 65, 1, true⟩ kv).2.IsPanic :=
    C45_short_passwords newServer_eq _ kv (by decide) (by decide) (by decide) (by decide) (by decide) (by decide)
  have h := C44_error_iff newServer_eq ⟨ascii "user", ascii "abc", List.replicate 8161 65, 1, true⟩ kv hp
  have he := h.1.mpr (.inl (by dsimp only; rw [List.length_replicate]; decide))
  exact ⟨he, h.2 he⟩

/-- C46_map: a value put between two that are appended. -/
example : (newKVStore.run [.append (ascii "k") [1], .put (ascii "k") [2], .append (ascii "j") [9],
    .append (ascii "k") [3]]).1.get (ascii "k") = .ok [2, 3] :=
  C46_map _ _ _ (.lastPut [.append (ascii "k") [1]] [.append (ascii "j") [9], .append (ascii "k") [3]] [2]
    (by intro k v h; simp at h))

/-- C47_refines: two keys. -/
example : ∃ st : HeapKV, HeapKV.Run (HeapKV.start fun _ => none) [.append (ascii "k") [1, 2]] st ∧
    (newKVStore.run [.append (ascii "k") [1, 2]]).1.get (ascii "k") = .ok (st.read (st.get (ascii "k"))) := by
  have h : HeapKV.Run (HeapKV.start fun _ => none) [.append (ascii "k") [1, 2]] _ :=
    .cons (.appendGrow _ (ascii "k") [1, 2] [0, 0] 0 (by decide) rfl) (.nil _)
  exact ⟨_, h, C47_refines (fun _ => none) _ _ (ascii "k") h (by intro k sl h; simp at h)⟩

/-- C48_linearizable, C49_order: a get that overlaps an append. -/
example : ∃ s, Conc.Exec [.inv 0 (.append (ascii "k") [1]), .inv 1 (.get (ascii "k")), .ret 0 [], .ret 1 [1]] s ∧
    Linearizable [.inv 0 (.append (ascii "k") [1]), .inv 1 (.get (ascii "k")), .ret 0 [], .ret 1 [1]] ∧
    ∃ es : List (Nat × Bytes), [1] = (es.map Prod.snd).flatten := by
  have h0 := Conc.Exec.start
  have h1 := h0.step (.call _ 0 (.append (ascii "k") [1]) rfl)
  have h2 := h1.step (.lock _ 0 (.append (ascii "k") [1]) rfl rfl rfl rfl)
  have h3 := h2.step (.loadAppend _ 0 (ascii "k") [1] rfl)
  have h4 := h3.step (.call _ 1 (.get (ascii "k")) rfl)
  have h5 := h4.step (.beginAppend _ 0 (ascii "k") [1] [] (fun _ => [7]) rfl)
  have h6 := h5.step (.endWrite _ 0 (.append (ascii "k") [1]) (ascii "k") (fun _ => []) [1] rfl)
  have h7 := h6.step (.unlock _ 0 (.append (ascii "k") [1]) [] rfl rfl)
  have h8 := h7.step (.rlock _ 1 (.get (ascii "k")) rfl rfl rfl)
  have h9 := h8.step (.ret _ 0 (.append (ascii "k") [1]) [] rfl)
  have h10 := h9.step (.loadGet _ 1 (ascii "k") rfl)
  have h11 := h10.step (.retGet _ 1 (ascii "k") [1] (by simp [Conc.at]))
  have h12 := h11.step (.runlock _ 1 (.get (ascii "k")) [1] (by simp [Conc.at]) rfl)
  have h13 := h12.step (.ret _ 1 (.get (ascii "k")) [1] (by simp [Conc.at]))
  refine ⟨_, h13, C48_linearizable _ _ h13, ?_⟩
  obtain ⟨es, h, -⟩ := C49_order [.inv 0 (.append (ascii "k") [1])] [.ret 0 []] [] 1 (ascii "k") [1] _ h13
    (by intro r' h; simp at h) (by intro t' v h; simp at h)
  exact ⟨es, h⟩

/-- C49_insert_entries: the calls of an insert, of which there is one. -/
example : ∃ k c, insertCalls ext server ⟨ascii "user", ascii "abc", [5], 0, false⟩ = [.append k c] ∧
    ∃ (id : UInt32) (e : RawEntry), server.bucketID ext (ascii "user") = .ok id ∧ e.WF ∧
      KVOp.append k c = .append (BucketIDToHex id) e.bytes := by
  obtain ⟨c, hc⟩ : ∃ c, server.encryptBucketEntry ext (ascii "user") (ascii "abc") MetadataBreachedPassword [5] =
      .ok c := ⟨_, encryptBucketEntry_ok newServer_eq (ascii "user") (ascii "abc") MetadataBreachedPassword [5]
        (by decide) (by decide) (by decide) example_tweak (by decide)⟩
  obtain ⟨id, hid, -⟩ := (C03_server_bucketID Example.cfg server newServer_eq (ascii "user")).1 (by decide) (by decide) (by decide)
  have hm : mutate dasRules (ascii "abc") 0 = .ok [] := by decide +kernel
  have h : insertCalls ext server ⟨ascii "user", ascii "abc", [5], 0, false⟩ = [.append (BucketIDToHex id) c] := by
    unfold insertCalls
    dsimp only
    rw [hid, hc, hm]
    rfl
  exact ⟨_, c, h, C49_insert_entries newServer_eq ⟨ascii "user", ascii "abc", [5], 0, false⟩ _
    (by rw [h]; exact List.mem_singleton.mpr rfl)⟩

/-! ## C52-C59: HTTP -/

/-- C52_config_only: servers that differ in their keys. -/
example : (handleConfig server).reply = (handleConfig { server with privateKey := ⟨8⟩ }).reply :=
  (C52_config_only server { server with privateKey := ⟨8⟩ } rfl).1

/-- C53_request_hex, C53_server_config -/
example (stale : Nat → Nat → UInt8) (r0 : ClientRequest) (e : Bytes) :
    ClientRequest.unmarshalJSON stale (⟨1, ascii "000abcde", e⟩ : ClientRequest).marshalJSON r0 =
      (⟨1, ascii "000abcde", e⟩, false) ∧
    ServerConfig.unmarshalJSON ext stale (Example.cfg.marshalJSON ext) = .ok Example.cfg :=
  ⟨C53_request_hex ⟨1, ascii "000abcde", e⟩ r0 stale [0, 0x0a, 0xbc, 0xde]
    (show hexDecode (ascii "000abcde") = _ by decide),
   C53_server_config ext Example.cfg ⟨by decide, by decide⟩ stale⟩

/-- C54_ideal_lookup, C54_only_from_reply: a query for the username of the example record over HTTP. -/
example (stale : Nat → Nat → UInt8) (rand : (S : Suite) → ZMod S.q) (hr : rand client.suite ≠ 0) : ∃ kv,
    Query ext Example.cfg.toConfig (deliver server kv stale (ascii "/evaluate")) (ascii "user") [] rand =
      .ret UsernameInBreach (some (ascii "A")) none ∧
    ∃ c req ctx, NewClient ext Example.cfg.toConfig = .ok c ∧
      c.request ext (ascii "user") [] (rand c.suite) = .ok (req, ctx) := by
  have hl : lookup [⟨ascii "user", ascii "abc", 1, ascii "A"⟩, ⟨ascii "user", ascii "Abc", 2, ascii "A"⟩,
      ⟨ascii "user", [], 3, ascii "A"⟩] (ascii "user") [] = some ⟨ascii "user", [], 3, ascii "A"⟩ := by
    decide +kernel
  obtain ⟨kv, -, hh⟩ := example_history
  have h := C54_ideal_lookup newClient_eq newServer_eq rfl example_tweak hh stale (ascii "user") [] rand hr (toy_hash_ne _)
    (by decide) (by decide) (by decide) (by decide) ?_
  · rw [hl] at h
    obtain ⟨-, c, req, ctx, -, -, h1, h2, -⟩ := C54_only_from_reply _ _ _ _ rand _ _ _ h (.inr (.inr rfl))
    exact ⟨kv, h, c, req, ctx, h1, h2⟩
  · intro x hx
    rcases List.mem_cons.mp hx with rfl | hx
    · exact example_no_collision _ _ _ _ (by decide) (by decide) example_tags2.1
    rcases List.mem_cons.mp hx with rfl | hx
    · exact example_no_collision _ _ _ _ (by decide) (by decide) example_tags2.2.1
    · rw [List.mem_singleton] at hx
      subst hx
      exact fun h => h.1 ⟨rfl, rfl⟩

/-- C54_unusable_key: with the private key that the tweak of the toy group turns into zero. -/
example : ∃ k s, NewServer ext { Example.cfg with privateKey := k } = .ok s ∧ Spec.tweak s.suite s.privateKey = 0 ∧
    ∀ (kv : KV) (stale : Nat → Nat → UInt8) (rand : (S : Suite) → ZMod S.q),
      Query ext Example.cfg.toConfig (deliver s kv stale (ascii "/evaluate")) (ascii "user") (ascii "abc") rand =
        .ret NotInBreach none (some (.httpStatus 500)) := by
  have ht : Spec.tweak toySuite ⟨73⟩ = 0 := by decide +kernel
  exact ⟨⟨73⟩, { server with privateKey := ⟨73⟩ }, rfl, ht, fun kv stale rand =>
    C54_unusable_key (cfg := { Example.cfg with privateKey := ⟨73⟩ }) newClient_eq rfl ht kv stale _ _ rand (by decide) (by decide)
      (by decide) (by decide)⟩

/-- C55_load, C56_complete, C57_client: the files of `C60_example`. -/
example (stale : Nat → Nat → UInt8) (chunk : Nat → Nat) (post : Nat → Bytes → Transport)
    (rand : Nat → (S : Suite) → ZMod S.q) :
    (∃ variants : Bytes → List Bytes, (∀ p, mutate dasRules p 2 = .ok (variants p)) ∧
      ((∀ x ∈ [(ascii "user", ascii "password1")], ∀ v ∈ variants x.2, v.length ≤ 65536) → ∃ kv,
        serverMain ext ⟨none, false, ascii "A", 2, false, some (ascii "user:password1\r\nbroken\n")⟩ ⟨7⟩ stale chunk =
          .serving server kv 1 1)) ∧
    (∃ chomped, List.Forall₂ IsChomped [ascii "user:password1\r", ascii "broken"] chomped ∧
      List.Forall₂ IsPart chomped [some (ascii "user", ascii "password1"), none]) ∧
    ∃ answers : List (BreachStatus × Option Bytes), answers.length ≤ 1 ∧
      (clientMain ext ⟨some (some Example.cfg.toConfig.marshalJSON), false, false, some (ascii "\nuser:password")⟩ .failed
        post rand stale chunk).stdout =
      ([(ascii "user", ascii "password")].zip answers).flatMap
        (fun x => clientObject false x.1.1 x.1.2 x.2.1 x.2.2 ++ [10]) := by
  refine ⟨?_, ?_, ?_⟩
  · obtain ⟨variants, hv, h, -⟩ := C55_load (E := ext) (cfg := Example.cfg) (s := server)
      (args := ⟨none, false, ascii "A", 2, false, some (ascii "user:password1\r\nbroken\n")⟩) (key := ⟨7⟩) (stale := stale)
      (chunk := chunk) rfl newServer_eq rfl rfl (by decide) (by decide) example_tweak (by decide) (by decide) (by decide)
      example_reads.1
    refine ⟨variants, hv, fun hl => ?_⟩
    obtain ⟨kv, h, -⟩ := h hl
    exact ⟨kv, h⟩
  · refine (C56_complete _ _ example_reads.1 [ascii "user:password1\r", ascii "broken"] ?_ ?_).2
    · exact .line (ascii "user:password1\r") (ascii "broken\n") _ (by decide) (.line (ascii "broken") [] _ (by decide) .empty)
    · intro l hl
      rcases List.mem_cons.mp hl with rfl | hl
      · decide
      · rw [List.mem_singleton.mp hl]; decide
  · have hcfg : clientConfig (some (some Example.cfg.toConfig.marshalJSON)) .failed stale = some Example.cfg.toConfig := by
      have h := (C53_config Example.cfg.toConfig Config.zero ⟨by decide, by decide⟩ stale)
      unfold clientConfig
      dsimp only
      rw [h.1]
      rfl
    obtain ⟨answers, h1, -, h2, -⟩ := C57_client (E := ext)
      (args := ⟨some (some Example.cfg.toConfig.marshalJSON), false, false, some (ascii "\nuser:password")⟩) (post := post)
      (rand := rand) (chunk := chunk) hcfg rfl rfl example_reads.2
    exact ⟨answers, h1, h2⟩

/-- C58_deterministic, C58_slow_hash: two servers of the same configuration; the hash of the default configuration. -/
example : NewServer ext Example.cfg = .ok server ∧
    server.deriveBucketEntryKey ext (ascii "user") (ascii "abc") = server.deriveBucketEntryKey ext (ascii "user") (ascii "abc") ∧
    ∃ y, NewScryptSlowHasher.hash ext (ascii "x") = .ok y ∧ y.length = 32 := by
  refine ⟨newServer_eq, C58_deterministic Example.cfg server server newServer_eq newServer_eq _ _, ?_⟩
  obtain ⟨y, h, h' | h'⟩ := C58_slow_hash (E := ext) 1 NewScryptSlowHasher rfl (ascii "x")
  · exact absurd h'.1 (by decide)
  · exact ⟨y, h, h'.2.2⟩

/-- C59_wrong_path: a target without a path. -/
example (kv : KV) (stale : Nat → Nat → UInt8) (u p : Bytes) (rand : (S : Suite) → ZMod S.q) :
    (∃ e, Query ext Example.cfg.toConfig (deliver server kv stale (ascii "/")) u p rand = .ret NotInBreach none (some e)) ∨
    ∃ q, Query ext Example.cfg.toConfig (deliver server kv stale (ascii "/")) u p rand = .panic q :=
  C59_wrong_path Example.cfg.toConfig server kv stale _ (by decide) (by decide) u p rand

/-- C60_breached_reported: a variant. -/
example : ∃ st, (st = InBreach ∨ st = SimilarInBreach ∨ st = UsernameInBreach) ∧
    idealLine false (storedAll (ascii "A") 2 true (fun _ => [ascii "Abc"]) [(ascii "user", ascii "abc")]) (ascii "user")
      (ascii "Abc") = clientObject false (ascii "user") (ascii "Abc") st (some (ascii "A")) ++ [10] :=
  C60_breached_reported (List.mem_singleton.mpr rfl) (.inr (.inl (List.mem_singleton.mpr rfl))) false

end Migp.Props
