import Verif.Props.Witness2
import Verif.Props.KVHeap
import Verif.Props.ConcInsert
import Verif.Props.Conc
import Verif.Props.Programs
import Verif.Props.Rules
/-!
# Concrete cases for the hypotheses of the theorems, part 3: variants, the store, the programs
-/
namespace Migp.Props
open Spec Example Mutator Bufio

/-! ## C33-C36, C41: variants -/

/-- C33_distinct, C34_from_rules, C34_prefix, C35_exact, C36_at_least_98, C41_length: two calls of `Mutate`. -/
example : mutate dasRules (ascii "abc") 1 = .ok [ascii "Abc"] ∧
    mutate dasRules (ascii "abc") 4 = .ok [ascii "Abc", ascii "ab", ascii "a", []] :=
  ⟨rec0_variants, by decide +kernel⟩

set_option maxRecDepth 100000 in
/-- The 324 strings that matter for "abc" have no two different members with the same murmur3 hash. -/
theorem abc_no_collisions :
    (((ascii "abc" :: dasRules.map (resultOf (ascii "abc"))).eraseDups).map Murmur3.sum32).Nodup := by
  decide +kernel

/-- C35_complete: so for this password `Mutate` returns exactly the results of the rules. -/
example : ∃ vs, mutate dasRules (ascii "abc") 323 = .ok vs ∧
    ∀ out, out ∈ vs ↔ out ≠ ascii "abc" ∧ ∃ r ∈ dasRules, RuleResult r (ascii "abc") out := by
  obtain ⟨vs, h⟩ := (C37_panics_iff (ascii "abc") 323).2.mpr (by decide)
  refine ⟨vs, h, C35_complete _ _ vs (by decide) h ?_⟩
  have key : ∀ l : List Bytes, (l.map Murmur3.sum32).Nodup → ∀ x ∈ l, ∀ y ∈ l,
      Murmur3.sum32 x = Murmur3.sum32 y → x = y := fun l hl x hx y hy e => List.inj_on_of_nodup_map hl hx hy e
  have mem : ∀ r ∈ dasRules, ∀ x, RuleResult r (ascii "abc") x →
      x ∈ (ascii "abc" :: dasRules.map (resultOf (ascii "abc"))).eraseDups := by
    intro r hr x hx
    rw [List.mem_eraseDups, (resultOf_spec _ r (dasRules_wf r hr)).2.2 x hx]
    exact List.mem_cons_of_mem _ (List.mem_map.mpr ⟨r, hr, rfl⟩)
  intro r hr r' hr' x y hx hy e
  refine key _ abc_no_collisions x ?_ y (mem r' hr' y hy) e
  rcases hx with hx | rfl
  · exact mem r hr x hx
  · rw [List.mem_eraseDups]
    exact List.mem_cons_self ..

/-- C38_ascii_involution, C38_only_one_byte -/
example : applyRule ⟨ascii "c", -1, [], []⟩ (ascii "abc") = .ok (ascii "abC") ∧
    applyRule ⟨ascii "c", -1, [], []⟩ (ascii "abC") = .ok (ascii "abc") := by
  have h : applyRule ⟨ascii "c", -1, [], []⟩ (ascii "abc") = .ok (ascii "abC") := by decide +kernel
  exact ⟨h, C38_ascii_involution _ _ _ _ _ (by decide) h⟩

/-! ## C47: two slices that overlap as index ranges, in different arrays -/

/-- C47_no_overlap -/
example : ∃ st : HeapKV, HeapKV.Run (HeapKV.start fun _ => none)
      [.append (ascii "k") [1, 2], .append (ascii "j") [3]] st ∧
    (st.store (ascii "j")).len + ([9] : Bytes).length ≤ (st.store (ascii "j")).cap ∧
    ((st.get (ascii "k")).off ≤ 1 ∧ 1 < (st.get (ascii "k")).off + (st.get (ascii "k")).len) ∧
    ((st.store (ascii "j")).off + (st.store (ascii "j")).len ≤ 1 ∧
      1 < (st.store (ascii "j")).off + (st.store (ascii "j")).len + ([9] : Bytes).length) := by
  let st0 : HeapKV := HeapKV.start fun _ => none
  let st1 : HeapKV := ⟨fun x => if x = 0 then some (st0.read (st0.store (ascii "k")) ++ [1, 2] ++ [0, 0]) else st0.mem x,
         fun j => if j = ascii "k" then
             ⟨0, 0, (st0.store (ascii "k")).len + ([1, 2] : Bytes).length,
               (st0.store (ascii "k")).len + ([1, 2] : Bytes).length + ([0, 0] : Bytes).length⟩
           else st0.store j⟩
  let st2 : HeapKV := ⟨fun x => if x = 1 then some (st1.read (st1.store (ascii "j")) ++ [3] ++ [0, 0]) else st1.mem x,
         fun j => if j = ascii "j" then
             ⟨1, 0, (st1.store (ascii "j")).len + ([3] : Bytes).length,
               (st1.store (ascii "j")).len + ([3] : Bytes).length + ([0, 0] : Bytes).length⟩
           else st1.store j⟩
  exact ⟨st2, .cons (.appendGrow st0 (ascii "k") [1, 2] [0, 0] 0 (by decide) rfl)
    (.cons (.appendGrow st1 (ascii "j") [3] [0, 0] 1 (by decide) (by decide)) (.nil _)), by decide, by decide, by decide⟩

/-! ## C48, C49: goroutines -/

/-- C48_race_free, C48_no_deadlock: goroutine 0 is writing while goroutine 1 waits for the lock. -/
example : ∃ h s, Conc.Exec h s ∧ (s.pc 0).Writes ∧ s.pc 1 = .called (.get (ascii "k")) := by
  have h0 := Conc.Exec.start
  have h1 := h0.step (.call _ 0 (.append (ascii "k") [1]) rfl)
  have h2 := h1.step (.lock _ 0 (.append (ascii "k") [1]) rfl rfl rfl rfl)
  have h3 := h2.step (.loadAppend _ 0 (ascii "k") [1] rfl)
  have h4 := h3.step (.call _ 1 (.get (ascii "k")) rfl)
  have h5 := h4.step (.beginAppend _ 0 (ascii "k") [1] [] (fun _ => [7]) rfl)
  exact ⟨_, _, h5, trivial, rfl⟩

/-- C49_whole_entries: goroutine 0 inserts a record (of one entry) while goroutine 1 answers a request. -/
example : ∃ (k : GoString) (c : Bytes) (st : Conc), 25 ≤ c.length ∧
    Conc.Exec ([.inv 0 (.append k c)] ++ .inv 1 (.get k) :: ([.ret 0 []] ++ .ret 1 c :: [])) st ∧
    ∀ t', invoked t' ([.inv 0 (.append k c)] ++ .inv 1 (.get k) :: ([.ret 0 []] ++ .ret 1 c :: [])) <+:
      ((fun t => if t = 0 then [Job.insert ⟨ascii "user", ascii "abc", [5], 0, false⟩]
        else if t = 1 then [Job.request k] else []) t' : List Job).flatMap (Job.calls ext server) := by
  obtain ⟨c, hc⟩ : ∃ c, server.encryptBucketEntry ext (ascii "user") (ascii "abc") MetadataBreachedPassword [5] =
      .ok c := ⟨_, encryptBucketEntry_ok newServer_eq (ascii "user") (ascii "abc") MetadataBreachedPassword [5]
        (by decide) (by decide) (by decide) example_tweak (by decide)⟩
  obtain ⟨id, hid⟩ : ∃ id, server.bucketID ext (ascii "user") = .ok id := by
    rcases bucketID_cases newServer_eq (ascii "user") with ⟨-, -, -, h⟩ | ⟨h, -⟩
    · exact h
    · exact absurd h (by decide)
  have hm : mutate dasRules (ascii "abc") 0 = .ok [] := by decide +kernel
  obtain ⟨k, hk⟩ : ∃ k, k = BucketIDToHex id := ⟨_, rfl⟩
  have hl : 25 ≤ c.length := by
    obtain ⟨key, -, h⟩ : ∃ key, server.deriveBucketEntryKey ext (ascii "user") (ascii "abc") = .ok key ∧
        server.bucketEncryptor.encrypt ext key MetadataBreachedPassword [5] = .ok c := by
      unfold Server.encryptBucketEntry at hc
      split at hc
      · cases hc
      · exact Res.bind_eq_ok.mp hc
    rw [(C07_size _ _ _ _ _ _ h).1]
    omega
  have h0 := Conc.Exec.start
  have h1 := h0.step (.call _ 0 (.append k c) rfl)
  have h2 := h1.step (.lock _ 0 (.append k c) rfl rfl rfl rfl)
  have h3 := h2.step (.loadAppend _ 0 k c rfl)
  have h4 := h3.step (.call _ 1 (.get k) rfl)
  have h5 := h4.step (.beginAppend _ 0 k c [] (fun _ => [7]) rfl)
  have h6 := h5.step (.endWrite _ 0 (.append k c) k (fun _ => []) c rfl)
  have h7 := h6.step (.unlock _ 0 (.append k c) [] rfl rfl)
  have h8 := h7.step (.rlock _ 1 (.get k) rfl rfl rfl)
  have h9 := h8.step (.ret _ 0 (.append k c) [] rfl)
  have h10 := h9.step (.loadGet _ 1 k rfl)
  have h11 := h10.step (.retGet _ 1 k c (by simp [Conc.at]))
  have h12 := h11.step (.runlock _ 1 (.get k) c (by simp [Conc.at]) rfl)
  have h13 := h12.step (.ret _ 1 (.get k) c (by simp [Conc.at]))
  refine ⟨k, c, _, hl, h13, fun t' => ?_⟩
  have hcalls : insertCalls ext server ⟨ascii "user", ascii "abc", [5], 0, false⟩ = [.append k c] := by
    unfold insertCalls
    dsimp only
    rw [hid, hc, hm, hk]
    rfl
  by_cases e0 : t' = 0
  · subst e0
    dsimp only [if_true]
    rw [if_pos rfl, List.flatMap_singleton]
    unfold Job.calls
    dsimp only
    rw [hcalls]
    exact ⟨[], rfl⟩
  · by_cases e1 : t' = 1
    · subst e1
      exact ⟨[], rfl⟩
    · dsimp only
      rw [if_neg e0, if_neg e1]
      refine ⟨[], ?_⟩
      have e0' : ¬ 0 = t' := fun h => e0 h.symm
      have e1' : ¬ 1 = t' := fun h => e1 h.symm
      simp [invoked, e0', e1']

/-! ## C50-C54: HTTP -/

/-- C50_evaluate, C51_evaluated_after_error: a body that decodes, one that does not. -/
example : let stale : Nat → Nat → UInt8 := fun _ _ => 0
    (ClientRequest.unmarshalJSON stale (ascii "{\"version\":1}") ClientRequest.zero).2 = false ∧
    (ClientRequest.unmarshalJSON stale (ascii "{\"version\":1") ClientRequest.zero).2 = true ∧
    (ClientRequest.unmarshalJSON stale (ascii "{\"version\":\"1\"}") ClientRequest.zero).2 = true := by
  refine ⟨?_, ?_, ?_⟩ <;> decide +kernel

/-- C51_error_page_leaks, C51_only_error_page_false: the example server answers requests (`example_request`), also
when the JSON is ill-typed. -/
example (stale : Nat → Nat → UInt8) (r : ZMod client.suite.q) : ∃ req w bytes,
    handleEvaluate server newKVStore stale (some (illTyped req)) = .ok w ∧
    w.reply = ⟨400, errorHeaders, ascii "Bad Request\n" ++ bytes⟩ := by
  obtain ⟨req, ctx, resp, -, h⟩ := example_request newKVStore (ascii "user") (ascii "pw") (by decide) (by decide) r
  obtain ⟨-, w, bytes, h1, h2, h3⟩ := C51_error_page_leaks server newKVStore stale req resp h
  exact ⟨req, w, bytes, h1, h3⟩

/-- C52_client_gets_config, C53_config, C53_server_config_key, C53_server_rebuilt: the example server. -/
example (stale : Nat → Nat → UInt8) (c0 : Config) :
    Config.decodeJSON stale (handleConfig server).reply.body c0 = (Example.cfg.toConfig, false) ∧
    (ServerConfig.unmarshalJSON ext stale (Example.cfg.marshalJSON ext) >>= NewServer ext) = .ok server :=
  ⟨(C52_client_gets_config Example.cfg server newServer_eq ⟨by decide, by decide⟩ stale c0).2,
   C53_server_rebuilt ext Example.cfg ⟨by decide, by decide⟩ server newServer_eq stale⟩

/-- C54_bad_reply: connections that fail, other statuses, unreadable bodies. -/
example (u p : Bytes) (rand : (S : Suite) → ZMod S.q) (post : Bytes → Transport)
    (h : post = (fun _ => .failed) ∨ post = (fun b => .reply 500 (some b)) ∨ post = fun _ => .reply 200 none) :
    (∃ e, Query ext Example.cfg.toConfig post u p rand = .ret NotInBreach none (some e)) ∨
    ∃ q, Query ext Example.cfg.toConfig post u p rand = .panic q := by
  refine C54_bad_reply _ post (fun b => ?_) u p rand
  rcases h with rfl | rfl | rfl
  · exact .inl rfl
  · exact .inr ⟨_, _, rfl, .inl (by decide)⟩
  · exact .inr ⟨_, _, rfl, .inr rfl⟩

/-! ## C55-C57, C61: the programs (`C60_example` is a complete run of both) -/

/-- C55_nothing_loaded: metadata that does not fit. -/
example (stale : Nat → Nat → UInt8) (chunk : Nat → Nat) :
    serverMain ext ⟨none, false, List.replicate 8161 65, 9, true, some (ascii "user:password1\r\nbroken\n")⟩ ⟨7⟩
      stale chunk = .serving server newKVStore 0 2 :=
  C55_nothing_loaded (cfg := Example.cfg) rfl newServer_eq rfl rfl (by decide) (by decide)
    (.inr (by dsimp only; rw [List.length_replicate]; decide)) example_reads.1

/-- C56_silent_stop, C56_server, C56_client: a line of 65536 bytes. -/
example (chunk chunk' : Nat → Nat) :
    scannedLines chunk (ascii "a:b\n" ++ List.replicate 65536 65 ++ ascii "\nc:d\n") =
      scannedLines chunk' (ascii "a:b\n") :=
  C56_silent_stop _ _ _ _ _ (.inr ⟨ascii "a:b", rfl⟩) (by rw [List.length_replicate]; decide)
    (fun h => absurd (List.eq_of_mem_replicate h) (by decide))

/-- C57_passwords_not_printed: two input files with different passwords, and a server that always fails. -/
example (stale : Nat → Nat → UInt8) (chunk chunk' : Nat → Nat) (rand : Nat → (S : Suite) → ZMod S.q) :
    clientMain ext ⟨some (some Example.cfg.toConfig.marshalJSON), false, false,
        some (ascii "user:password1\r\nbroken\n")⟩ .failed (fun _ _ => .failed) rand stale chunk =
      clientMain ext ⟨some (some Example.cfg.toConfig.marshalJSON), false, false,
        some (ascii "\nuser:password")⟩ .failed (fun _ _ => .failed) rand stale chunk' := by
  have hcfg : clientConfig (some (some Example.cfg.toConfig.marshalJSON)) .failed stale =
      some Example.cfg.toConfig := by
    have h := (C53_config Example.cfg.toConfig Config.zero ⟨by decide, by decide⟩ stale)
    unfold clientConfig
    dsimp only
    rw [h.1]
    rfl
  refine C57_passwords_not_printed (args := ⟨some (some Example.cfg.toConfig.marshalJSON), false, false, none⟩)
    hcfg hcfg rfl rfl example_reads.1 example_reads.2 rfl ?_
  intro i u p p' h h'
  have e1 : credentials [some (ascii "user", ascii "password1"), none] = [(ascii "user", ascii "password1")] := rfl
  have e2 : credentials [none, some (ascii "user", ascii "password")] = [(ascii "user", ascii "password")] := rfl
  rw [e1, List.getElem?_singleton] at h
  rw [e2, List.getElem?_singleton] at h'
  have hq : ∀ u p : Bytes, u.length ≤ 65536 → p.length ≤ 65536 →
      Query ext Example.cfg.toConfig (fun _ => .failed) u p (rand i) = .ret NotInBreach none (some .transport) := by
    intro u p hu hp
    obtain ⟨req, ctx, -, h1, -⟩ := example_request newKVStore u p hu hp (rand i client.suite)
    unfold Query
    rw [newClient_eq]
    dsimp only
    rw [h1]
    rfl
  by_cases hi : i = 0
  · rw [if_pos hi] at h h'
    obtain ⟨hu, hp⟩ := Prod.mk.inj (Option.some.inj h)
    obtain ⟨-, hp'⟩ := Prod.mk.inj (Option.some.inj h')
    rw [← hu, ← hp, ← hp']
    exact (hq _ _ (by decide) (by decide)).trans (hq _ _ (by decide) (by decide)).symm
  · rw [if_neg hi] at h
    cases h

/-- C61_server_reload, C61_client_reload -/
example (stale stale' : Nat → Nat → UInt8) (chunk : Nat → Nat) (key' : PrivateKey) : ∃ out,
    serverMain ext ⟨none, true, [], 9, true, none⟩ ⟨7⟩ stale chunk = .dumped out ∧
    serverMain ext ⟨some (some out), false, [], 9, true, none⟩ key' stale' chunk =
      serverMain ext ⟨none, false, [], 9, true, none⟩ ⟨7⟩ stale chunk :=
  C61_server_reload (cfg := Example.cfg) ⟨none, false, [], 9, true, none⟩ ⟨7⟩ key' stale stale' chunk rfl newServer_eq

end Migp.Props
