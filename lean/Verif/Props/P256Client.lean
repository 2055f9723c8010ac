import Verif.Props.P256Query
import Verif.Props.P256Programs
/-!
# C91: the client program with the real libraries
-/
namespace Migp.Props
open P256 Spec Http Mutator

/-- A query that ends with an error: the server's key cannot be used, the blind is zero, or the credential hashes to infinity. -/
def Unlucky (cfg : ServerConfig) (blind : ZMod P256.suite.q) (x : Bytes × Bytes) : Prop :=
  P256.q ∣ cfg.privateKey.k + scalarOf Spec.info ∨ blind = 0 ∨
    P256.hashToElement (Spec.oprfInput P256.ext cfg.slowHasherID x.1 x.2) = 0

/-- C91: a run of the client program with the real libraries against a server whose store has any history, with nothing assumed of the
key, the blinds and the hashes: it prints what looking its credentials up in the list of what was stored gives, up to the first
unlucky query, if there is one; there it ends with status 1. Nothing wrong is printed; unless 20-byte tags coincide. -/
theorem C91_client {cfg : ServerConfig} {s : Server} (hs : NewServer P256.ext cfg = .ok s)
    (h0 : 0 ≤ cfg.bucketIDBitSize) (h32 : cfg.bucketIDBitSize ≤ 32)
    {kv : KV} {db : List Stored} (h : History P256.ext s kv db)
    {args : ClientArgs} {rand : Nat → (S : Suite) → ZMod S.q} {stale stale' : Nat → Nat → UInt8} {chunk : Nat → Nat} {file : Bytes}
    (hcc : args.config = none) (hd : args.dumpConfig = false) (hf : args.infile = some file)
    {parts : List (Option (Bytes × Bytes))} (hp : ReadsAs file parts)
    (hno : ∀ x ∈ credentials parts, ∀ y ∈ db, ¬ TagCollision P256.ext s y x.1 x.2) :
    ∃ n, n ≤ (credentials parts).length ∧
      (∀ i x, i < n → (credentials parts)[i]? = some x → ¬ Unlucky cfg (rand i P256.suite) x) ∧
      (∀ x, (credentials parts)[n]? = some x → Unlucky cfg (rand n P256.suite) x) ∧
      clientMain P256.ext args (deliver s kv stale (ascii "/config") [])
          (fun _ => deliver s kv stale (ascii "/evaluate")) rand stale' chunk =
        { stdout := ((credentials parts).take n).flatMap (fun x => idealLine args.showPassword db x.1 x.2),
          warned := decide (cfg.version ≠ 1),
          exit := if n = (credentials parts).length then .ok else .failure } := by
  obtain ⟨c, hc⟩ := newClient_of_newServer hs
  have hgo : IsGoInt cfg.bucketIDBitSize := by constructor <;> omega
  have hconf : clientConfig args.config (deliver s kv stale (ascii "/config") []) stale' = some cfg.toConfig := by
    rw [hcc]; exact clientConfig_from_server hs hgo kv stale stale'
  rw [clientMain_creds hconf hd hf hp]
  have hlen : ∀ x ∈ credentials parts, x.1.length ≤ 65536 ∧ x.2.length ≤ 65536 :=
    fun x hx => by have := readsAs_lengths hp (u := x.1) (p := x.2) hx; omega
  have hquery : ∀ k, ∀ x ∈ credentials parts,
      (¬ Unlucky cfg (rand k P256.suite) x →
        Query P256.ext cfg.toConfig (deliver s kv stale (ascii "/evaluate")) x.1 x.2 (rand k) =
          match lookup db x.1 x.2 with
          | none => .ret NotInBreach none none
          | some y => .ret (MetadataType.toBreachStatus y.flag) (some y.metadata) none) ∧
      (Unlucky cfg (rand k P256.suite) x → ∃ e,
        Query P256.ext cfg.toConfig (deliver s kv stale (ascii "/evaluate")) x.1 x.2 (rand k) = .ret NotInBreach none (some e)) := by
    intro k x hx
    obtain ⟨h1, h2⟩ := C91_query hc hs h stale x.1 x.2 (rand k) (hlen x hx).1 (hlen x hx).2 h0 h32 (hno x hx)
    rw [client_suite hc] at h1 h2
    unfold Unlucky
    constructor
    · intro hl
      push Not at hl
      exact h1 hl
    · intro hl
      refine h2 (fun hg => ?_)
      rcases hl with e | e | e
      · exact hg.1 e
      · exact hg.2.1 e
      · exact hg.2.2 e
  generalize credentials parts = creds at hquery
  have hrun : ∀ k, ∃ n, n ≤ creds.length ∧
      (∀ i x, i < n → creds[i]? = some x → ¬ Unlucky cfg (rand (k + i) P256.suite) x) ∧
      (∀ x, creds[n]? = some x → Unlucky cfg (rand (k + n) P256.suite) x) ∧
      queryCreds args.showPassword
        (fun k u p => Query P256.ext cfg.toConfig (deliver s kv stale (ascii "/evaluate")) u p (rand k)) k creds =
        ((creds.take n).flatMap (fun x => idealLine args.showPassword db x.1 x.2), if n = creds.length then .ok else .failure) := by
    induction creds with
    | nil => exact fun k => ⟨0, Nat.le_refl _, fun i x hi => absurd hi (Nat.not_lt_zero _), fun x hx => (by cases hx), rfl⟩
    | cons x creds ih =>
      intro k
      obtain ⟨u, p⟩ := x
      obtain ⟨hq1, hq2⟩ := hquery k (u, p) List.mem_cons_self
      by_cases hl : Unlucky cfg (rand k P256.suite) (u, p)
      · obtain ⟨e, he⟩ := hq2 hl
        refine ⟨0, Nat.zero_le _, fun i x hi => absurd hi (Nat.not_lt_zero _), ?_, ?_⟩
        · intro x hx
          cases hx
          exact hl
        · rw [queryCreds]
          dsimp only at he
          rw [he]
          rfl
      · obtain ⟨n, hn, g1, g2, g3⟩ := ih (fun k x hx => hquery k x (List.mem_cons_of_mem _ hx)) (k + 1)
        refine ⟨n + 1, by simpa using hn, ?_, ?_, ?_⟩
        · intro i x hi hx
          cases i with
          | zero => cases hx; exact hl
          | succ i =>
            have := g1 i x (by omega) hx
            rwa [show k + 1 + i = k + (i + 1) by omega] at this
        · intro x hx
          have := g2 x hx
          rwa [show k + 1 + n = k + (n + 1) by omega] at this
        · have hq := hq1 hl
          dsimp only at hq
          rw [queryCreds]
          rw [hq, List.take_succ_cons, List.flatMap_cons, idealLine]
          dsimp only
          have he : (if n + 1 = ((u, p) :: creds).length then Exit.ok else Exit.failure) =
              if n = creds.length then Exit.ok else Exit.failure := by
            simp only [List.length_cons, Nat.add_right_cancel_iff]
          rw [he]
          cases lookup db u p with
          | none => dsimp only; rw [g3]
          | some y => dsimp only; rw [g3]
  obtain ⟨n, hn, g1, g2, g3⟩ := hrun 0
  simp only [Nat.zero_add] at g1 g2
  refine ⟨n, hn, g1, g2, ?_⟩
  dsimp only
  rw [g3]
  rfl

/-- C91_client: the server of the example before, with one entry; a client program (without a slow hash, as the server tells it) that asks for its credential twice,
the first time with the blind 1 and then with the blind 0. It prints one answer and ends with status 1. -/
example (stale : Nat → Nat → UInt8) (chunk : Nat → Nat) (rand : Nat → (S : Suite) → ZMod S.q) (h1 : rand 0 P256.suite = 1)
    (h2 : rand 1 P256.suite = 0) : ∃ s kv, NewServer P256.ext quickCfg = .ok s ∧
    clientMain P256.ext ⟨none, false, false, some (ascii "user:password1\nuser:password1\n")⟩
        (deliver s kv stale (ascii "/config") []) (fun _ => deliver s kv stale (ascii "/evaluate")) rand stale chunk =
      { stdout := clientObject false (ascii "user") (ascii "password1") (MetadataType.toBreachStatus 1) (some (ascii "A")) ++ [10],
        warned := false, exit := .failure } := by
  obtain ⟨c, s, kv, hc, hs, hh, -⟩ := quick_example (fun _ _ => 0)
  have hd : ¬ P256.q ∣ 7 + scalarOf Spec.info := by rw [scalarOf_info]; decide +kernel
  have hp : ReadsAs (ascii "user:password1\nuser:password1\n") [some (ascii "user", ascii "password1"), some (ascii "user", ascii "password1")] := by
    refine ⟨[ascii "user:password1", ascii "user:password1"], [ascii "user:password1", ascii "user:password1"], ?_, ?_, ?_⟩
    · exact .line (ascii "user:password1") (ascii "user:password1\n") _ (by decide)
        (.line (ascii "user:password1") [] _ (by decide) .empty)
    · have : ([ascii "user:password1", ascii "user:password1"] : List Bytes).takeWhile (fun l => l.length ≤ 65535) =
        [ascii "user:password1", ascii "user:password1"] := by decide
      rw [this]
      exact .cons (Bufio.dropCR_chomped _) (.cons (Bufio.dropCR_chomped _) .nil)
    · exact .cons ⟨rfl, by decide⟩ (.cons ⟨rfl, by decide⟩ .nil)
  obtain ⟨n, hn, g1, g2, g3⟩ := C91_client hs (by decide) (by decide) hh (args := ⟨none, false, false, some (ascii "user:password1\nuser:password1\n")⟩)
    (rand := rand) (stale := stale) (stale' := stale) (chunk := chunk) rfl rfl rfl hp (by
      intro x hx y hy hcol
      simp only [credentials, List.filterMap_cons, List.filterMap_nil, id, List.mem_cons, List.not_mem_nil, or_false, or_self] at hx
      rw [List.mem_singleton] at hy
      subst hx hy
      exact hcol.1 ⟨rfl, rfl⟩)
  have e : credentials [some (ascii "user", ascii "password1"), some (ascii "user", ascii "password1")] =
    [(ascii "user", ascii "password1"), (ascii "user", ascii "password1")] := rfl
  rw [e] at hn g1 g2 g3
  have hn1 : n = 1 := by
    rcases n with _ | _ | _ | n
    · exfalso
      rcases g2 _ rfl with h | h | h
      · exact hd h
      · rw [h1] at h; exact one_ne_zero h
      · exact example_hash_ne_zero h
    · rfl
    · exact absurd (.inr (.inl h2)) (g1 1 _ (by omega) rfl)
    · simp at hn
  subst hn1
  refine ⟨s, kv, hs, ?_⟩
  have hl : lookup [⟨ascii "user", ascii "password1", 1, ascii "A"⟩] (ascii "user") (ascii "password1") =
      some ⟨ascii "user", ascii "password1", 1, ascii "A"⟩ := by
    unfold lookup
    rw [List.find?_cons_of_pos (by simp)]
  have e1 : (List.take 1 [(ascii "user", ascii "password1"), (ascii "user", ascii "password1")]).flatMap
      (fun x => idealLine false [⟨ascii "user", ascii "password1", 1, ascii "A"⟩] x.1 x.2) =
      clientObject false (ascii "user") (ascii "password1") (MetadataType.toBreachStatus 1) (some (ascii "A")) ++ [10] := by
    rw [show List.take 1 [(ascii "user", ascii "password1"), (ascii "user", ascii "password1")] = [(ascii "user", ascii "password1")] from rfl,
      List.flatMap_cons, List.flatMap_nil, List.append_nil]
    unfold idealLine
    rw [hl]
  rw [g3, e1, if_neg (by decide), show decide (quickCfg.version ≠ 1) = false by decide]

end Migp.Props
