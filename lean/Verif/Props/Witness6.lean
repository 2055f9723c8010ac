import Verif.Props.Witness5
import Verif.Props.KVMem
import Verif.Props.Memory
import Verif.Props.Parallel
import Verif.Props.ServerJson
import Verif.Props.JsonText
import Verif.Props.ClientConfig
/-!
# Concrete cases for the hypotheses of the theorems, part 6: memory and JSON (C62-C69)
-/
namespace Migp.Props
open Spec Example Mutator Json

/-! ## C62: slices without the lock -/

/-- C62_linearizable, C62_no_byte_race, C62_no_deadlock: the state of `C62_example`, in which goroutine 0 is about to write a
byte of array 7 while goroutine 1 holds a slice of it. -/
example : ∃ (h : List Ev) (s : MConc) (sl : Slice), MConc.Exec (fun _ => none) h s ∧ Linearizable h ∧
    (1, sl, [1, 2]) ∈ s.given ∧ sl.arr = 7 ∧ (s.pc 0).WritesByte 7 2 ∧ ¬ sl.Covers 7 2 ∧
    ∃ l s', MConc.Step s l s' ∧ ∀ t op, l ≠ some (.inv t op) := by
  have e := run_grow 0 (ascii "k") [1, 2] [0, 0] 7 (MConc.Exec.start (mem := fun _ => none)) rfl (by decide) rfl
  have e := run_get 1 (ascii "k") e rfl
  obtain ⟨_, e⟩ := run_begin 0 (ascii "k") [3] e rfl (by decide)
  have hw : (MPC.copying (ascii "k") [3] ⟨7, 0, 2, 4⟩ 0).WritesByte 7 2 := ⟨ascii "k", [3], ⟨7, 0, 2, 4⟩, 0, rfl, by decide, rfl, rfl⟩
  refine ⟨_, _, ⟨7, 0, 2, 4⟩, e, C62_linearizable _ _ _ e, List.mem_cons_self, rfl, hw, ?_, ?_⟩
  · exact (C62_no_byte_race _ _ _ e 0 7 2 hw).1 1 _ _ List.mem_cons_self
  · exact C62_no_deadlock _ _ _ e 0 (fun h => nomatch h) ⟨0, by rfl⟩

/-- C62_snapshot: goroutine 1 has got a slice of array 7 and left the lock; once it has returned, what it returned keeps its
bytes, whatever happens then. -/
example : ∃ (h : List Ev) (s s₁ : MConc), MConc.Exec (fun _ => none) h s ∧ s.pc 1 = .unlocked (.get (ascii "k")) ⟨7, 0, 2, 4⟩ ∧
    MConc.Step s (some (.ret 1 [1, 2])) s₁ ∧ ∀ s', MConc.Steps s₁ s' → s'.mem.read ⟨7, 0, 2, 4⟩ = [1, 2] := by
  have e := run_grow 0 (ascii "k") [1, 2] [0, 0] 7 (MConc.Exec.start (mem := fun _ => none)) rfl (by decide) rfl
  have e := e.step (.call _ 1 (.get (ascii "k")) rfl)
  have e := e.step (.rlock _ 1 _ rfl rfl rfl)
  have e := e.step (.loadGet _ 1 _ rfl)
  have e := e.step (.retGet _ 1 _ _ rfl)
  have e := e.step (.runlock _ 1 _ _ rfl rfl)
  obtain ⟨h, s, e, hp, hm⟩ : ∃ h s, MConc.Exec (fun _ => none) h s ∧ s.pc 1 = .unlocked (.get (ascii "k")) ⟨7, 0, 2, 4⟩ ∧
      s.mem.read ⟨7, 0, 2, 4⟩ = [1, 2] := ⟨_, _, e, rfl, rfl⟩
  obtain ⟨s₁, hret, hi⟩ : ∃ s₁, MConc.Step s (some (.ret 1 (s.mem.read ⟨7, 0, 2, 4⟩))) s₁ ∧ s₁.pc 1 = .idle :=
    ⟨_, MConc.Step.ret s 1 _ _ hp, by show MConc.at s 1 .idle 1 = _; unfold MConc.at; rw [if_pos rfl]⟩
  refine ⟨h, s, s₁, e, hp, hm ▸ hret, fun s' hs => ?_⟩
  rw [(C62_snapshot _ _ _ _ s' 1 _ _ _ e hp hret hi hs).2, hm]

/-- C62_whole_entries: goroutine 0 inserts a record of one entry, then goroutine 1 answers a request. -/
example : ∃ (k : GoString) (c : Bytes) (st : MConc), MConc.Exec (fun _ => none)
      ([.inv 0 (.append k c), .ret 0 []] ++ .inv 1 (.get k) :: ([] ++ .ret 1 c :: [])) st ∧
    ∃ es : List (Nat × RawEntry), (∀ e ∈ es, e.2.WF) ∧ c = bucket (es.map Prod.snd) ∧ c ≠ [] := by
  obtain ⟨c, hc⟩ : ∃ c, server.encryptBucketEntry ext (ascii "user") (ascii "abc") MetadataBreachedPassword [5] =
      .ok c := ⟨_, encryptBucketEntry_ok newServer_eq (ascii "user") (ascii "abc") MetadataBreachedPassword [5]
        (by decide) (by decide) (by decide) example_tweak (by decide)⟩
  obtain ⟨id, hid, -⟩ := (C03_server_bucketID Example.cfg server newServer_eq (ascii "user")).1 (by decide) (by decide) (by decide)
  have hm : mutate dasRules (ascii "abc") 0 = .ok [] := by decide +kernel
  have hcalls : insertCalls ext server ⟨ascii "user", ascii "abc", [5], 0, false⟩ = [.append (BucketIDToHex id) c] := by
    unfold insertCalls
    dsimp only
    rw [hid, hc, hm]
    rfl
  obtain ⟨k, hk⟩ : ∃ k, k = BucketIDToHex id := ⟨_, rfl⟩
  rw [← hk] at hcalls
  have hl : c ≠ [] := by
    obtain ⟨key, -, h⟩ : ∃ key, server.deriveBucketEntryKey ext (ascii "user") (ascii "abc") = .ok key ∧
        server.bucketEncryptor.encrypt ext key MetadataBreachedPassword [5] = .ok c := by
      unfold Server.encryptBucketEntry at hc
      split at hc
      · cases hc
      · exact Res.bind_eq_ok.mp hc
    have := (C07_size _ _ _ _ _ _ h).1
    rintro rfl
    cases this
  have e := run_grow 0 k c [0, 0] 7 (MConc.Exec.start (mem := fun _ => none)) rfl
    (show 0 < 0 + c.length by rw [Nat.zero_add]; exact List.length_pos_iff.mpr hl) rfl
  have e := run_get 1 k e rfl
  rw [if_pos rfl] at e
  have hread : Mem.read (fun x => if x = 7 then some (Mem.read (fun _ => none) Slice.nil ++ (c ++ [0, 0])) else none)
      ⟨7, 0, Slice.nil.len + c.length, Slice.nil.len + c.length + [(0 : UInt8), 0].length⟩ = c := by
    show ((([] : Bytes) ++ (c ++ [0, 0])).drop 0).take (0 + c.length) = c
    rw [List.nil_append, List.drop_zero, Nat.zero_add, List.take_left]
  rw [hread] at e
  have hjobs : ∀ t', invoked t' ([.inv 0 (.append k c), .ret 0 []] ++ .inv 1 (.get k) :: ([] ++ .ret 1 c :: [])) <+:
      ((if t' = 0 then [Job.insert ⟨ascii "user", ascii "abc", [5], 0, false⟩]
        else if t' = 1 then [Job.request k] else []).flatMap (Job.calls ext server)) := by
    intro t'
    by_cases e0 : t' = 0
    · subst e0
      rw [if_pos rfl, List.flatMap_singleton]
      unfold Job.calls
      dsimp only
      rw [hcalls]
      exact ⟨[], rfl⟩
    · by_cases e1 : t' = 1
      · subst e1
        exact ⟨[], rfl⟩
      · rw [if_neg e0, if_neg e1]
        refine ⟨[], ?_⟩
        have e0' : ¬ 0 = t' := fun h => e0 h.symm
        have e1' : ¬ 1 = t' := fun h => e1 h.symm
        simp [invoked, e0', e1']
  obtain ⟨es, h1, h2, -⟩ := C62_whole_entries newServer_eq (fun _ => none) [.inv 0 (.append k c), .ret 0 []] [] [] 1 k c _ e
    (fun _ h => nomatch h) _ hjobs
  exact ⟨k, c, _, e, es, h1, h2, hl⟩

/-! ## C63: documents -/

/-- Whether a parse succeeded with an object. -/
def isObject : Option JVal → Bool
  | some (.obj _) => true
  | _ => false

theorem not_object {data : Bytes} (h : isObject (parse data) = false) (ms : List (GoString × JVal)) :
    ¬ IsDocument data (.obj ms) := by
  intro hd
  rw [(parse_iff _ _).mpr hd] at h
  exact nomatch h

/-- C63_config_other, C63_request_other, C63_server_config_other: an array, and a text that is no JSON. -/
example (E : Ext) (stale : Nat → Nat → UInt8) (c0 : Config) (r0 : ClientRequest) :
    (Config.unmarshalJSON stale (ascii "[1]") c0).1 = c0 ∧
    (ClientRequest.unmarshalJSON stale (ascii "{") r0).1 = r0 ∧
    (¬ IsDocument (ascii "{") .null → ServerConfig.unmarshalJSON E stale (ascii "{") = .err .json) :=
  ⟨(C63_config_other stale _ c0 (not_object (by decide +kernel))).1,
   (C63_request_other stale _ r0 (not_object (by decide +kernel))).1,
   (C63_server_config_other E stale _ (not_object (by decide +kernel))).1⟩

/-- A document with two members for the element, the second with a `null` in its array (that of `C63_null_example`). -/
theorem null_document : ∃ ms, IsDocument (ascii "{\"blindElement\":[1,2,3], \"blindElement\":[7,null,9]}") (.obj ms) := by
  have h : isObject (parse (ascii "{\"blindElement\":[1,2,3], \"blindElement\":[7,null,9]}")) = true := by decide +kernel
  rcases hp : parse (ascii "{\"blindElement\":[1,2,3], \"blindElement\":[7,null,9]}") with _ | v
  · rw [hp] at h; exact nomatch h
  · rw [hp] at h
    cases v with
    | obj ms => exact ⟨ms, (parse_iff _ _).mp hp⟩
    | _ => exact nomatch h

/-- C63_request_bytes, C63_request_error, C63_request_fields: that document, read into a request. -/
example : ∃ ms, IsDocument (ascii "{\"blindElement\":[1,2,3], \"blindElement\":[7,null,9]}") (.obj ms) ∧
    ByteField (ascii "blindElement") ms [] [7, 2, 9] ∧
    ¬ (∃ m ∈ ms, SameName (ascii "blindElement") m.1 ∧ NotBytes m.2) ∧
    LastWins (ascii "version") (fun v (n : UInt32) => IsUint 4294967295 v n.toNat) ms 7 7 := by
  obtain ⟨ms, h⟩ := null_document
  have hx := C63_null_example
  have h1 := C63_request_bytes (fun _ _ => 0) _ ⟨7, [], []⟩ ms h
  have h2 := C63_request_error (fun _ _ => 0) _ ⟨7, [], []⟩ ms h
  have h3 := (C63_request_fields (fun _ _ => 0) _ ⟨7, [], []⟩ ms h).1
  rw [hx] at h1 h2 h3
  exact ⟨ms, h, h1, (fun hn => nomatch h2.mpr (.inr (.inr hn))), h3⟩

/-- C63_server_config, C63_server_config_exact, C69_server_config, C69_config: the configuration of the example server. -/
example (stale : Nat → Nat → UInt8) : ∃ ms key,
    IsDocument (Example.cfg.marshalJSON ext) (.obj (ms ++ [(ascii "privateKey", .str key)])) ∧
    CanonicalBase64 key [7] ∧ ¬ ConfigIllTyped (ms ++ [(ascii "privateKey", .str key)]) ∧
    ConfigFields (ms ++ [(ascii "privateKey", .str key)]) Config.zero Example.cfg.toConfig ∧
    ∃ ms, IsDocument Example.cfg.toConfig.marshalJSON (.obj ms) ∧ IsConfigMembers Example.cfg.toConfig ms := by
  obtain ⟨ms, key, h1, -, h3⟩ := C69_server_config ext Example.cfg ⟨by decide, by decide⟩
  have hok := C53_server_config ext Example.cfg ⟨by decide, by decide⟩ stale
  have h := C63_server_config ext stale _ _ h1
  have he := (C63_server_config_exact ext stale _ _ h1).1
  refine ⟨ms, key, h1, h3, fun hi => ?_, (h.2 _ hok).1, C69_config Example.cfg.toConfig ⟨by decide, by decide⟩⟩
  have := he (.inl hi)
  rw [hok] at this
  exact nomatch this

/-- C69_response_bytes, C69_response_fields: the document of a response, read into another. -/
example (stale : Nat → Nat → UInt8) (r r0 : ServerResponse) : ∃ ms, IsDocument r.marshalJSON (.obj ms) ∧
    ByteField (ascii "evaluatedElement") ms r0.evaluatedElement r.evaluatedElement ∧
    LastWins (ascii "version") (fun v (n : UInt32) => IsUint 4294967295 v n.toNat) ms r0.version r.version := by
  obtain ⟨v, e, b, h, -⟩ := C69_response r
  have h1 := (C69_response_bytes stale _ r0 _ h).1
  have h2 := (C69_response_fields stale _ r0 _ h).1
  rw [C69_response_round_trip] at h1 h2
  exact ⟨_, h, h1, h2⟩

/-! ## C64: the configuration of the client -/

/-- C64_dump_and_warning, C64_error_page, C64_no_config -/
example (post : Nat → Bytes → Transport) (rand : Nat → (S : Suite) → ZMod S.q) (stale : Nat → Nat → UInt8)
    (chunk : Nat → Nat) (file : Option Bytes) (body : Option Bytes) :
    clientMain ext ⟨none, true, false, file⟩ (.reply 200 (some (DefaultConfig.marshalJSON ++ [10]))) post rand stale chunk =
      ⟨DefaultConfig.marshalJSON, false, .ok⟩ ∧
    clientMain ext ⟨none, true, false, file⟩ (.reply 500 body) post rand stale chunk = ⟨[], false, .failure⟩ ∧
    clientMain ext ⟨some none, true, false, file⟩ .failed post rand stale chunk = ⟨[], false, .failure⟩ :=
  ⟨(C64_dump_and_warning ⟨none, true, false, file⟩ _ post rand stale chunk DefaultConfig
      ((C64_source _ _ _ _).mpr (.inr ⟨rfl, _, rfl, (C53_config DefaultConfig _ (by decide) stale).2 [10]⟩))).1 rfl,
   C64_error_page ⟨none, true, false, file⟩ 500 body post rand stale chunk rfl (by decide),
   C64_no_config ⟨some none, true, false, file⟩ .failed post rand stale chunk rfl⟩

/-! ## C65, C67: the heap -/

/-- C65_bucket_id, C65_encrypt_entry, C65_encryptor, C65_hashers: the line of `exHeap`. -/
example : Does exHeap (client.bucketIDH ext ⟨0, 0, 3, 3⟩) (client.bucketID ext (ascii "bob")) (fun _ x y => x = y) ∧
    DoesNew exHeap (server.encryptBucketEntryH ext ⟨0, 0, 3, 3⟩ ⟨0, 4, 7, 10⟩ 1 ⟨0, 0, 11, 14⟩)
      (server.encryptBucketEntry ext (ascii "bob") (ascii "hunter2") 1 (ascii "bob:hunter2")) ∧
    DoesNew exHeap (BucketEncryptor.encryptH ext .hkdfSHA256 ⟨0, 4, 7, 10⟩ 1 ⟨0, 0, 11, 14⟩)
      (BucketEncryptor.encrypt ext .hkdfSHA256 (ascii "hunter2") 1 (ascii "bob:hunter2")) ∧
    DoesNew exHeap (BucketHasher.hashH ext NewSHA256BucketHasher ⟨0, 0, 3, 3⟩) (NewSHA256BucketHasher.hash ext (ascii "bob")) :=
  ⟨(C65_bucket_id ext client server ex_user).1, C65_encrypt_entry ext server 1 ex_user ex_pass ex_line,
   (C65_encryptor ext .hkdfSHA256 1 ex_pass ex_line).1, (C65_hashers ext NewSHA256BucketHasher NewScryptSlowHasher ex_user).1⟩

/-- C65_handle_request, C65_marshal: a request whose element is the line, and an empty store; a response whose two parts lie in
the same line. -/
example : Does exHeap (server.handleRequestH ⟨1, ascii "00", ⟨0, 0, 11, 14⟩⟩ (fun _ => pure Slice.nil))
      (server.handleRequest ⟨1, ascii "00", ascii "bob:hunter2"⟩ newKVStore.get) (Handled exHeap.mem Slice.nil) ∧
    DoesNew exHeap (ServerResponseH.marshalBinaryH ⟨1, ⟨0, 0, 3, 3⟩, ⟨0, 4, 7, 10⟩⟩)
      (ServerResponse.marshalBinary ⟨1, ascii "bob", ascii "hunter2"⟩) :=
  ⟨C65_handle_request server (reqv := ⟨1, ascii "00", ascii "bob:hunter2"⟩) ⟨rfl, rfl, ex_line⟩ (fun _ => Slice.nil) newKVStore
     (fun _ => (shows_nil exHeap).shows),
   C65_marshal (rv := ⟨1, ascii "bob", ascii "hunter2"⟩) ⟨rfl, ex_user, ex_pass⟩⟩

/-- C67_agrees, C67_aliases, C67_receiver: the message of `exMessage`. -/
example (r : ServerResponseH) : ∃ r' h', (r.unmarshalBinaryH ⟨0, 0, 38, 40⟩).run exMessage = (.ok (r', none), h') ∧
    Shows (Heap.mem [makeBytes 37 ++ [9, 9, 9]]) r'.bucketContents [9] := by
  rcases hr : (r.unmarshalBinaryH ⟨0, 0, 38, 40⟩).run exMessage with ⟨x, h'⟩
  obtain ⟨r', e, hx, he, -⟩ := C67_agrees r ex_message hr
  have hok : (ServerResponse.unmarshalBinary (makeBytes 3 ++ [1] ++ makeBytes 33 ++ [7])).IsOk := ⟨_, rfl⟩
  have h0 := he.mpr hok
  subst h0
  subst hx
  exact ⟨r', h', rfl, C67_aliases r ex_message (by decide) hr (h2 := [makeBytes 37 ++ [9, 9, 9]]) (b' := makeBytes 37 ++ [9])
    (by unfold Shows; decide)⟩

theorem shows_array (h : Heap) (i : Nat) (b : Bytes) (hb : h[i]? = some b) : Shows h.mem ⟨i, 0, b.length, b.length⟩ b := by
  refine ⟨Nat.le_refl _, rfl, fun j _ => ?_⟩
  unfold Memory.byte Heap.mem
  rw [hb, Nat.zero_add]
  rfl

/-- C65_metadata_survives: the query for the username of the example record, with its context and its response on a heap that
is then overwritten. -/
example : ∃ (h h1 h2 : Heap) (ctx : ClientRequestContextH) (resp : ServerResponseH) (x : FinalizeH) (md : Slice),
    (ctx.finalizeH ext resp).run h = (.ok x, h1) ∧ x.metadata = some md ∧ h2.mem 0 = some [] ∧ OldOverwritten h.mem h1.mem h2.mem ∧
    Shows h2.mem md (ascii "A") := by
  have hl : lookup [⟨ascii "user", ascii "abc", 1, ascii "A"⟩, ⟨ascii "user", ascii "Abc", 2, ascii "A"⟩,
      ⟨ascii "user", [], 3, ascii "A"⟩] (ascii "user") [] = some ⟨ascii "user", [], 3, ascii "A"⟩ := by
    decide +kernel
  obtain ⟨kv, -, hh⟩ := example_history
  have hx := C28_ideal_lookup newClient_eq newServer_eq hh (ascii "user") [] 1 (by decide) (by decide) (by decide)
    (by decide) example_tweak one_ne_zero ?_
  · rw [hl] at hx
    obtain ⟨reqv, ctxv, respv, h1, h2⟩ := example_request kv (ascii "user") [] (by decide) (by decide) 1
    unfold exchange at hx
    rw [h1] at hx
    dsimp only at hx
    rw [h2] at hx
    dsimp only at hx
    let h : Heap := [ctxv.input, respv.evaluatedElement, respv.bucketContents]
    let ctx : ClientRequestContextH := ⟨ctxv.client, ⟨0, 0, ctxv.input.length, ctxv.input.length⟩, ctxv.blind⟩
    let resp : ServerResponseH := ⟨respv.version, ⟨1, 0, respv.evaluatedElement.length, respv.evaluatedElement.length⟩,
      ⟨2, 0, respv.bucketContents.length, respv.bucketContents.length⟩⟩
    have hc : ContextShows h.mem ctx ctxv := ⟨rfl, shows_array h 0 _ rfl, HEq.rfl⟩
    have hr : ResponseShows h.mem resp respv := ⟨rfl, shows_array h 1 _ rfl, shows_array h 2 _ rfl⟩
    rcases does_cases (C65_finalize ext hc hr) with ⟨x, b, h', e1, e2, k, rq⟩ | ⟨e, h', e1, e2, k⟩ | ⟨q, h', e1, e2, k⟩
    · rw [hx] at e2
      have hb := Res.ok.inj e2
      subst hb
      obtain ⟨-, -, hm⟩ := rq
      cases hmd : x.metadata with
      | none => rw [hmd] at hm; exact hm.elim
      | some md =>
        have ho : OldOverwritten h.mem h'.mem (Heap.mem (h'.set 0 [])) := fun a c ha hc => by
          have ha : 3 ≤ a := List.getElem?_eq_none_iff.mp ha
          unfold Heap.mem at *
          rw [List.getElem?_set_ne (by omega), hc]
        obtain ⟨b, hb1, hb2⟩ := C65_metadata_survives ext hc hr e1 ho hmd
        rw [hx] at hb1
        injection hb1 with _ hb1 _
        have hb1 := Option.some.inj hb1
        rw [← hb1] at hb2
        refine ⟨h, h', _, ctx, resp, x, md, e1, hmd, ?_, ho, hb2⟩
        have hlen := k.length_le
        unfold Heap.mem
        exact List.getElem?_set_self (by have : h.length = 3 := rfl; omega)
    · rw [hx] at e2; exact nomatch e2
    · rw [hx] at e2; exact nomatch e2
  · intro x hx
    rcases List.mem_cons.mp hx with rfl | hx
    · exact example_no_collision _ _ _ _ (by decide) (by decide) example_tags2.1
    rcases List.mem_cons.mp hx with rfl | hx
    · exact example_no_collision _ _ _ _ (by decide) (by decide) example_tags2.2.1
    · rw [List.mem_singleton] at hx
      subst hx
      exact fun h => h.1 ⟨rfl, rfl⟩

/-! ## C68: goroutines -/

/-- C68_no_data_race, C68_shared_memory_kept, C68_progress: the two goroutines of `exCode`, in every state they reach. -/
example : (∃ s', Par.Step ⟨exHeap, exCode⟩ s') ∧ ∀ s, Par.Reaches exHeap exCode s → Kept exHeap.mem s.heap.mem ∧
    ∀ arr i, ¬ ((s.code 0).Writes arr i ∧ (s.code 1).Accesses arr i) := by
  refine ⟨?_, fun s run => ⟨(C68_shared_memory_kept ext exHeap exCode exOutcome _ ex_calls s run 0).1,
    fun arr i => C68_no_data_race ext exHeap exCode exOutcome _ ex_calls s run 0 1 (by decide) arr i⟩⟩
  exact C68_progress ⟨exHeap, exCode⟩ 1 (fun x h => nomatch h)

end Migp.Props
