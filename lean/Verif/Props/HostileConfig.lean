import Verif.Props.Traffic
/-!
# C79: what the configuration that a server serves can do to the client program
-/
namespace Migp.Props
open Migp.Spec Migp.Bufio Migp.Json Migp.Mutator

variable {E : Ext} {c : Client}

/-- The first bits of the hash of a username that selects its bucket. -/
def _root_.Migp.Spec.hashBits (E : Ext) (n : Nat) (u : Bytes) : List Bool := (bitsOf (E.sha256 (bucketPreimage u))).take n

theorem natOfBits_inj {a b : List Bool} (hl : a.length = b.length) (h : natOfBits a = natOfBits b) : a = b := by
  induction a using List.reverseRecOn generalizing b with
  | nil => exact (List.length_eq_zero_iff.mp hl.symm).symm
  | append_singleton a x ih =>
    obtain ⟨b', y, rfl⟩ : ∃ b' y, b = b' ++ [y] := by
      have hne : b ≠ [] := by rintro rfl; simp at hl
      exact ⟨_, _, (List.dropLast_append_getLast hne).symm⟩
    rw [natOfBits_append, natOfBits_append] at h
    have h1 : natOfBits [x] = if x then 1 else 0 := by cases x <;> rfl
    have h2 : natOfBits [y] = if y then 1 else 0 := by cases y <;> rfl
    rw [h1, h2] at h
    simp only [List.length_singleton, Nat.pow_one] at h
    have hl' : a.length = b'.length := by simpa using hl
    cases x <;> cases y <;> simp at h
    · rw [ih hl' (by omega)]
    · omega
    · omega
    · rw [ih hl' (by omega)]

theorem bitsOf_length (b : Bytes) : (bitsOf b).length = 8 * b.length := by
  induction b with
  | nil => rfl
  | cons x b ih => rw [bitsOf, List.flatMap_cons, List.length_append]; unfold bitsOf at ih; rw [ih]; simp [bitsOfByte]; omega

theorem hashBits_length (E : Ext) (n : Nat) (u : Bytes) (h : n ≤ 256) : (hashBits E n u).length = n := by
  unfold hashBits
  rw [List.length_take, bitsOf_length, E.sha256_len]
  omega

/-- C79: what a query shows of the username is exactly as many bits of its hash as the configuration says: two usernames are in the
same bucket iff these bits agree. -/
theorem C79_shown_bits (ccfg : Config) (hc : NewClient E ccfg = .ok c) (h0 : 0 ≤ ccfg.bucketIDBitSize)
    (h32 : ccfg.bucketIDBitSize ≤ 32) (u u' p p' : Bytes) (hu : u.length ≤ 65536) (hu' : u'.length ≤ 65536)
    (r r' : ZMod c.suite.q) (req req' : ClientRequest) (ctx ctx' : ClientRequestContext)
    (h : c.request E u p r = .ok (req, ctx)) (h' : c.request E u' p' r' = .ok (req', ctx')) :
    req.bucketID = req'.bucketID ↔
      hashBits E ccfg.bucketIDBitSize.toNat u = hashBits E ccfg.bucketIDBitSize.toNat u' := by
  obtain ⟨id, i1, i2, -⟩ := C03_client_bucketID ccfg c hc u hu h0 h32
  obtain ⟨id', i1', i2', -⟩ := C03_client_bucketID ccfg c hc u' hu' h0 h32
  have b1 : req.bucketID = BucketIDToHex id := by
    unfold Client.request at h
    obtain ⟨_, _, h⟩ := Res.bind_eq_ok.mp h
    obtain ⟨_, _, h⟩ := Res.bind_eq_ok.mp h
    obtain ⟨i, hi, h⟩ := Res.bind_eq_ok.mp h
    rw [i1] at hi
    cases hi
    injection h with h
    exact (congrArg (fun x => x.1.bucketID) h).symm
  have b2 : req'.bucketID = BucketIDToHex id' := by
    unfold Client.request at h'
    obtain ⟨_, _, h'⟩ := Res.bind_eq_ok.mp h'
    obtain ⟨_, _, h'⟩ := Res.bind_eq_ok.mp h'
    obtain ⟨i, hi, h'⟩ := Res.bind_eq_ok.mp h'
    rw [i1'] at hi
    cases hi
    injection h' with h'
    exact (congrArg (fun x => x.1.bucketID) h').symm
  rw [b1, b2]
  constructor
  · intro e
    have e := congrArg UInt32.toNat (BucketIDToHex_inj e)
    rw [i2, i2'] at e
    exact natOfBits_inj ((hashBits_length E _ u (by omega)).trans (hashBits_length E _ u' (by omega)).symm) e
  · intro e
    have : id.toNat = id'.toNat := by rw [i2, i2']; exact congrArg natOfBits e
    rw [UInt32.toNat_inj.mp this]

theorem hashBits_mono {n m : Nat} (h : n ≤ m) {u u' : Bytes} (e : hashBits E m u = hashBits E m u') :
    hashBits E n u = hashBits E n u' := by
  have := congrArg (List.take n) e
  unfold hashBits at this ⊢
  rwa [List.take_take, List.take_take, Nat.min_eq_left h] at this

/-- C79: no configuration makes the program show more than the first 32 bits of the hashes. Two files whose usernames agree in them
look alike to the server, whatever (supported) configuration it serves: as in `C70_hiding`, the blinds can be matched so that
both runs send the beginning of one and the same sequence of messages. -/
theorem C79_at_most_32_bits {args : ClientArgs} {ccfg : Config} {file file' : Bytes} (hc : NewClient E ccfg = .ok c)
    (h0 : 0 ≤ ccfg.bucketIDBitSize) (h32 : ccfg.bucketIDBitSize ≤ 32) (hd : args.dumpConfig = false)
    {parts parts' : List (Option (Bytes × Bytes))} (hp : ReadsAs file parts) (hp' : ReadsAs file' parts')
    (hb : List.Forall₂ (fun x x' : Bytes × Bytes => hashBits E 32 x.1 = hashBits E 32 x'.1)
      (credentials parts) (credentials parts'))
    (he : ∀ x ∈ credentials parts ++ credentials parts',
      c.suite.hashToElement (Spec.oprfInput E ccfg.slowHasherID x.1 x.2) ≠ 0) :
    ∃ f : Nat → {r : ZMod c.suite.q // r ≠ 0} ≃ {r : ZMod c.suite.q // r ≠ 0},
      ∀ (r : Nat → {r : ZMod c.suite.q // r ≠ 0}) (rand rand' : Nat → (S : Suite) → ZMod S.q),
        (∀ i, rand i c.suite = (r i).1) → (∀ i, rand' i c.suite = (f i (r i)).1) →
        ∃ msgs : List Sent, ∀ net stale chunk stale' chunk',
          clientConfig args.config (net [.config]) stale = some ccfg →
          clientConfig args.config (net [.config]) stale' = some ccfg →
          let run := (clientTalk E { args with infile := some file } rand stale chunk).run net []
          let run' := (clientTalk E { args with infile := some file' } rand' stale' chunk').run net []
          run.1 <+: msgs ∧ run'.1 <+: msgs ∧ (run.2.exit = .ok → run.1 = msgs) ∧ (run'.2.exit = .ok → run'.1 = msgs) := by
  refine C70_hiding hc h0 h32 hd hp hp' ?_ he
  have hl : ∀ x ∈ credentials parts, x.1.length ≤ 65536 :=
    fun x hx => by have := readsAs_lengths hp (u := x.1) (p := x.2) hx; omega
  have hl' : ∀ x ∈ credentials parts', x.1.length ≤ 65536 :=
    fun x hx => by have := readsAs_lengths hp' (u := x.1) (p := x.2) hx; omega
  revert hl hl'
  clear he
  generalize credentials parts = l at hb ⊢
  generalize credentials parts' = l' at hb ⊢
  intro hl hl'
  induction hb with
  | nil => exact .nil
  | @cons x x' l l' hx _ ih =>
    refine .cons ?_ (ih (fun y hy => hl y (List.mem_cons_of_mem _ hy)) fun y hy => hl' y (List.mem_cons_of_mem _ hy))
    obtain ⟨id, i1, i2, -⟩ := C03_client_bucketID ccfg c hc x.1 (hl x (List.mem_cons_self ..)) h0 h32
    obtain ⟨id', i1', i2', -⟩ := C03_client_bucketID ccfg c hc x'.1 (hl' x' (List.mem_cons_self ..)) h0 h32
    have : id.toNat = id'.toNat := by
      rw [i2, i2']
      exact congrArg natOfBits (hashBits_mono (m := 32) (by omega) hx)
    rw [i1, i1', UInt32.toNat_inj.mp this]

/-- C79: a configuration with a bucket size outside 0..32 is not refused; it crashes the program at its first credential, before
any query is sent, whatever comes back. -/
theorem C79_bad_size_crashes {args : ClientArgs} {ccfg : Config} {file : Bytes} (hc : NewClient E ccfg = .ok c)
    (hb : ccfg.bucketIDBitSize < 0 ∨ 32 < ccfg.bucketIDBitSize) (hd : args.dumpConfig = false)
    (hf : args.infile = some file) {parts : List (Option (Bytes × Bytes))} (hp : ReadsAs file parts)
    (hne : credentials parts ≠ []) (rand : Nat → (S : Suite) → ZMod S.q) :
    ∃ q : Panic, ∀ net stale chunk, clientConfig args.config (net [.config]) stale = some ccfg →
      (clientTalk E args rand stale chunk).run net [] = (opening args, ⟨[], decide (ccfg.version ≠ 1), .panic q⟩) := by
  cases hcr : credentials parts with
  | nil => exact absurd hcr hne
  | cons x rest =>
    obtain ⟨u, p⟩ := x
    obtain ⟨q, hq⟩ := (C02_request_panics_iff ccfg c hc u p (rand 0 c.suite)).1.mpr (by omega)
    refine ⟨q, fun net stale chunk hcfg => ?_⟩
    rw [clientTalk_run hcfg hd hf hp, hcr]
    dsimp only
    unfold credRun Query sentBody
    rw [hc]
    dsimp only
    rw [hq]
    show (opening args ++ [], _) = _
    rw [List.append_nil]
    rfl

/-- C79: a configuration that names an algorithm the client does not have ends the program at its first credential with
status 1, before any query is sent, whatever comes back. -/
theorem C79_unsupported_stops {args : ClientArgs} {ccfg : Config} {file : Bytes}
    (hc : ccfg.bucketHasherID.toNat ≠ 1 ∨ 1 < ccfg.slowHasherID.toNat ∨ ccfg.bucketEncryptorID.toNat ≠ 1 ∨
      E.suites ccfg.oprfSuite = none)
    (hd : args.dumpConfig = false) (hf : args.infile = some file) {parts : List (Option (Bytes × Bytes))}
    (hp : ReadsAs file parts) (hne : credentials parts ≠ []) (rand : Nat → (S : Suite) → ZMod S.q)
    (net : List Sent → Transport) (stale : Nat → Nat → UInt8) (chunk : Nat → Nat)
    (hcfg : clientConfig args.config (net [.config]) stale = some ccfg) :
    (clientTalk E args rand stale chunk).run net [] = (opening args, ⟨[], decide (ccfg.version ≠ 1), .failure⟩) := by
  have hno : ¬ (NewClient E ccfg).IsOk := by
    rw [C12_newClient_iff]
    rintro ⟨h1, h2, h3, h4⟩
    rcases hc with h | h | h | h
    · exact h h1
    · omega
    · exact h h3
    · rw [h] at h4; cases h4
  have hnp := (C12_no_panic (E := E) ({ toConfig := ccfg, privateKey := ⟨0⟩ } : ServerConfig)).1
  cases hcr : credentials parts with
  | nil => exact absurd hcr hne
  | cons x rest =>
    obtain ⟨u, p⟩ := x
    rw [clientTalk_run hcfg hd hf hp, hcr]
    dsimp only
    unfold credRun Query sentBody
    cases hn : NewClient E ccfg with
    | ok c => exact absurd ⟨c, hn⟩ hno
    | panic q => exact absurd ⟨q, hn⟩ hnp
    | err e =>
      show (opening args ++ [], _) = _
      rw [List.append_nil]
      rfl

/-- The hypotheses are met by what servers serve: `NewServer` takes the bucket size 33, a client that asks such a server gets the
configuration, and crashes on its first credential. -/
example (kv : KV) (stale stale' : Nat → Nat → UInt8) (chunk : Nat → Nat) (rand : Nat → (S : Suite) → ZMod S.q) :
    ∃ s : Server, NewServer Example.ext { Example.cfg with bucketIDBitSize := 33 } = .ok s ∧
      ∃ q : Panic, (clientTalk Example.ext ⟨none, false, false, some (ascii "user:password\nuser:x")⟩ rand stale' chunk).run
        (fun _ => deliver s kv stale (ascii "/config") []) [] = ([.config], ⟨[], false, .panic q⟩) := by
  obtain ⟨s, hs⟩ : ∃ s : Server, NewServer Example.ext { Example.cfg with bucketIDBitSize := 33 } = .ok s := ⟨_, rfl⟩
  refine ⟨s, hs, ?_⟩
  obtain ⟨q, hq⟩ := C79_bad_size_crashes (E := Example.ext) (args := ⟨none, false, false, some (ascii "user:password\nuser:x")⟩)
    (ccfg := { Example.cfg.toConfig with bucketIDBitSize := 33 }) (c := _) rfl (.inr (by decide)) rfl rfl traffic_reads.1
    (by simp [credentials]) rand
  exact ⟨q, hq _ stale' chunk (clientConfig_from_server hs ⟨by decide, by decide⟩ kv stale stale')⟩

/-- The same for a slow hasher that the client does not have. -/
example (net : List Sent → Transport) (stale : Nat → Nat → UInt8) (chunk : Nat → Nat) (rand : Nat → (S : Suite) → ZMod S.q)
    (h : clientConfig none (net [.config]) stale = some { Example.cfg.toConfig with slowHasherID := 2 }) :
    (clientTalk Example.ext ⟨none, false, false, some (ascii "user:password\nuser:x")⟩ rand stale chunk).run net [] =
      ([.config], ⟨[], false, .failure⟩) :=
  C79_unsupported_stops (args := ⟨none, false, false, some (ascii "user:password\nuser:x")⟩) (.inr (.inl (by decide))) rfl rfl
    traffic_reads.1 (by simp [credentials]) rand net stale chunk h

/-- Different usernames can agree in 32 bits of real SHA-256: the hypothesis of `C79_at_most_32_bits` is not equality. -/
example : hashBits Example.ext 32 (ascii "user34322") = hashBits Example.ext 32 (ascii "user52326") ∧
    hashBits Example.ext 32 (ascii "user34322") ≠ hashBits Example.ext 32 (ascii "user") := by decide +kernel

end Migp.Props
