import Verif.Props.Main
/-!
# C57, C60, C61: whole runs of the programs
-/
namespace Migp.Props
open Migp.Spec Migp.Bufio Migp.Json Migp.Mutator

variable {E : Ext} {cfg : ServerConfig} {c : Client} {s : Server}

/-- The loop of the client over the credentials alone. -/
def queryCreds (show_ : Bool) (query : Nat → Bytes → Bytes → Out) :
    Nat → List (Bytes × Bytes) → Bytes × Exit
  | _, [] => ([], .ok)
  | k, (u, p) :: rest =>
    match query k u p with
    | .panic q => ([], .panic q)
    | .ret _ _ (some _) => ([], .failure)
    | .ret st md none =>
      (clientObject show_ u p st md ++ [10] ++ (queryCreds show_ query (k + 1) rest).1,
        (queryCreds show_ query (k + 1) rest).2)

theorem queryLines_creds (show_ : Bool) (query : Nat → Bytes → Bytes → Out) (lines : List Bytes)
    (parts : List (Option (Bytes × Bytes))) (hp : List.Forall₂ IsPart lines parts) (k : Nat) :
    queryLines show_ query k lines = queryCreds show_ query k (credentials parts) := by
  induction hp generalizing k with
  | nil => rfl
  | @cons line o lines parts ho _ ih =>
    cases o with
    | none =>
      have hc : credentials (none :: parts) = credentials parts := rfl
      rw [hc, queryLines, isPart_none_iff.mp ho]
      exact ih k
    | some x =>
      obtain ⟨u, p⟩ := x
      have hc : credentials (some (u, p) :: parts) = (u, p) :: credentials parts := rfl
      rw [hc, queryLines, isPart_some_iff.mp ho, queryCreds]
      dsimp only
      cases query k u p with
      | panic q => rfl
      | ret st md err =>
        cases err with
        | some e => rfl
        | none => dsimp only; rw [ih (k + 1)]

theorem clientMain_creds {args : ClientArgs} {get : Transport} {post : Nat → Bytes → Transport}
    {rand : Nat → (S : Suite) → ZMod S.q} {stale : Nat → Nat → UInt8} {chunk : Nat → Nat} {ccfg : Config}
    {file : Bytes} (hcfg : clientConfig args.config get stale = some ccfg) (hd : args.dumpConfig = false)
    (hf : args.infile = some file) {parts : List (Option (Bytes × Bytes))} (hp : ReadsAs file parts) :
    clientMain E args get post rand stale chunk =
      let r := queryCreds args.showPassword (fun k u p => Query E ccfg (post k) u p (rand k)) 0
        (credentials parts)
      ⟨r.1, decide (ccfg.version ≠ DefaultMIGPVersion), r.2⟩ := by
  unfold clientMain
  rw [hcfg]
  dsimp only
  rw [hd, if_neg (by simp), hf]
  dsimp only
  rw [queryLines_creds _ _ _ _ (scannedLines_parts chunk file parts hp) 0]

/-- C57: without `-show-password`, passwords do not reach the output: runs on two files with the same usernames
and possibly different passwords, whose queries are answered alike, print the same and end alike. -/
theorem C57_passwords_not_printed {args : ClientArgs} {get get' : Transport} {post post' : Nat → Bytes → Transport}
    {rand rand' : Nat → (S : Suite) → ZMod S.q} {stale stale' : Nat → Nat → UInt8} {chunk chunk' : Nat → Nat}
    {ccfg : Config} {file file' : Bytes} (hcfg : clientConfig args.config get stale = some ccfg)
    (hcfg' : clientConfig args.config get' stale' = some ccfg) (hd : args.dumpConfig = false)
    (hsh : args.showPassword = false) {parts parts' : List (Option (Bytes × Bytes))}
    (hp : ReadsAs file parts) (hp' : ReadsAs file' parts')
    (hu : (credentials parts).map Prod.fst = (credentials parts').map Prod.fst)
    (hq : ∀ i u p p', (credentials parts)[i]? = some (u, p) → (credentials parts')[i]? = some (u, p') →
      Query E ccfg (post i) u p (rand i) = Query E ccfg (post' i) u p' (rand' i)) :
    clientMain E { args with infile := some file } get post rand stale chunk =
      clientMain E { args with infile := some file' } get' post' rand' stale' chunk' := by
  rw [clientMain_creds (args := { args with infile := some file }) hcfg hd rfl hp,
    clientMain_creds (args := { args with infile := some file' }) hcfg' hd rfl hp']
  dsimp only
  rw [hsh]
  have key : ∀ (l l' : List (Bytes × Bytes)) (k : Nat), l.map Prod.fst = l'.map Prod.fst →
      (∀ i u p p', l[i]? = some (u, p) → l'[i]? = some (u, p') →
        Query E ccfg (post (k + i)) u p (rand (k + i)) = Query E ccfg (post' (k + i)) u p' (rand' (k + i))) →
      queryCreds false (fun k u p => Query E ccfg (post k) u p (rand k)) k l =
        queryCreds false (fun k u p => Query E ccfg (post' k) u p (rand' k)) k l' := by
    intro l
    induction l with
    | nil =>
      intro l' k h _
      cases l' with
      | nil => rfl
      | cons x l' => cases h
    | cons x l ih =>
      intro l' k h h2
      cases l' with
      | nil => cases h
      | cons x' l' =>
        obtain ⟨u, p⟩ := x
        obtain ⟨u', p'⟩ := x'
        simp only [List.map_cons, List.cons.injEq] at h
        obtain ⟨rfl, h⟩ := h
        have e := h2 0 u p p' rfl rfl
        rw [Nat.add_zero] at e
        rw [queryCreds, queryCreds]
        rw [e]
        have := ih l' (k + 1) h (fun i u p p' h3 h4 => by
          have := h2 (i + 1) u p p' h3 h4
          rw [show k + (i + 1) = k + 1 + i by omega] at this
          exact this)
        rw [this]
        cases Query E ccfg (post' k) u p' (rand' k) with
        | panic q => rfl
        | ret st md err =>
          cases err with
          | none => dsimp only; rw [C57_no_password u p p']
          | some e => rfl
  rw [key _ _ 0 hu (fun i u p p' h1 h2 => by rw [Nat.zero_add]; exact hq i u p p' h1 h2)]

/-! ## C60: server and client together -/

theorem newClient_of_newServer (hs : NewServer E cfg = .ok s) : ∃ c, NewClient E cfg.toConfig = .ok c := by
  obtain ⟨h1, h2, h3, h4, -⟩ := (C12_newServer_iff cfg).mp ⟨s, hs⟩
  exact (C12_newClient_iff cfg.toConfig).mpr ⟨h1, h2, h3, h4⟩

/-- The configuration the client fetches from a server is the public part of the server's. -/
theorem clientConfig_from_server (hs : NewServer E cfg = .ok s) (hb : IsGoInt cfg.bucketIDBitSize) (kv : KV)
    (stale stale' : Nat → Nat → UInt8) :
    clientConfig none (deliver s kv stale (ascii "/config") []) stale' = some cfg.toConfig := by
  have hr : route (ascii "/config") = .config := by decide
  obtain ⟨h1, h2⟩ := C52_client_gets_config cfg s hs hb stale' Config.zero
  unfold clientConfig deliver serve
  rw [hr]
  dsimp only
  rw [h1, if_neg (by simp)]
  rw [h2]
  rfl

/-- What the client prints for a credential, given the list of stored credentials. -/
def idealLine (show_ : Bool) (db : List Stored) (u p : Bytes) : Bytes :=
  match lookup db u p with
  | none => clientObject show_ u p NotInBreach none ++ [10]
  | some x => clientObject show_ u p (MetadataType.toBreachStatus x.flag) (some x.metadata) ++ [10]

/-- C60: end to end. The server program is started on a file of breached credentials, the client program on a file of
credentials to check, and fetches its configuration from the server. Then the client prints, for each line with a
colon of its file, in order, what looking the credential up in the list of all loaded credentials and
variants gives, and exits with status 0 — provided that the suite has 33-byte elements, no credential asked for has
the key tag of a different one in the same bucket, no blind is zero and no credential hashes to the identity. -/
theorem C60_end_to_end {args : ServerArgs} {key : PrivateKey} {stale : Nat → Nat → UInt8} {chunk : Nat → Nat}
    {file : Bytes} (hcfg : serverConfig E args.config key stale = some cfg) (hs : NewServer E cfg = .ok s)
    (hd : args.dumpConfig = false) (hf : args.infile = some file)
    (h0 : 0 ≤ cfg.bucketIDBitSize) (h32 : cfg.bucketIDBitSize ≤ 32)
    (ht : Spec.tweak s.suite s.privateKey ≠ 0) (hm : args.metadata.length ≤ 8160)
    (hn0 : 0 ≤ args.numVariants) (hn1 : args.numVariants ≤ maxSliceCap)
    {parts : List (Option (Bytes × Bytes))} (hp : ReadsAs file parts)
    (hlen : ∀ x ∈ credentials parts, x.2.length ≤ 49152) (h33 : s.suite.elemLen = 33)
    {cargs : ClientArgs} {rand : Nat → (S : Suite) → ZMod S.q} {stale1 stale2 : Nat → Nat → UInt8}
    {chunk' : Nat → Nat} {file' : Bytes} (hcc : cargs.config = none) (hcd : cargs.dumpConfig = false)
    (hcf : cargs.infile = some file') {parts' : List (Option (Bytes × Bytes))} (hp' : ReadsAs file' parts')
    (hr : ∀ i, rand i s.suite ≠ 0)
    (he : ∀ x ∈ credentials parts', s.suite.hashToElement (Spec.oprfInput E cfg.slowHasherID x.1 x.2) ≠ 0) :
    ∃ (variants : Bytes → List Bytes) (kv : KV), (∀ p, mutate dasRules p args.numVariants = .ok (variants p)) ∧
      serverMain E args key stale chunk =
        .serving s kv (credentials parts).length (parts.length - (credentials parts).length) ∧
      let db := storedAll args.metadata args.numVariants args.usernameVariant variants (credentials parts)
      ((∀ x ∈ credentials parts', ∀ y ∈ db, ¬ TagCollision E s y x.1 x.2) →
        clientMain E cargs (deliver s kv stale1 (ascii "/config") [])
            (fun _ => deliver s kv stale1 (ascii "/evaluate")) rand stale2 chunk' =
          { stdout := (credentials parts').flatMap (fun x => idealLine cargs.showPassword db x.1 x.2),
            warned := decide (cfg.version ≠ 1), exit := .ok }) := by
  obtain ⟨variants, kv, hv, h1, h2⟩ := C55_load_short (chunk := chunk) hcfg hs hd hf h0 h32 ht hm hn0 hn1 hp hlen
  refine ⟨variants, kv, hv, h1, ?_⟩
  dsimp only
  intro hno
  generalize storedAll args.metadata args.numVariants args.usernameVariant variants (credentials parts) = db
    at h2 hno
  obtain ⟨c, hc⟩ := newClient_of_newServer hs
  have hgo : IsGoInt cfg.bucketIDBitSize := by constructor <;> omega
  have hconf : clientConfig cargs.config (deliver s kv stale1 (ascii "/config") []) stale2 = some cfg.toConfig := by
    rw [hcc]; exact clientConfig_from_server hs hgo kv stale1 stale2
  rw [clientMain_creds hconf hcd hcf hp']
  dsimp only
  have hsuite := suite_eq hc hs
  have hlen' : ∀ x ∈ credentials parts', x.1.length ≤ 65536 ∧ x.2.length ≤ 65536 :=
    fun x hx => by have := readsAs_lengths hp' (u := x.1) (p := x.2) hx; omega
  have hquery : ∀ k, ∀ x ∈ credentials parts',
      Query E cfg.toConfig (deliver s kv stale1 (ascii "/evaluate")) x.1 x.2 (rand k) =
        match lookup db x.1 x.2 with
        | none => .ret NotInBreach none none
        | some y => .ret (MetadataType.toBreachStatus y.flag) (some y.metadata) none := by
    intro k x hx
    exact C54_ideal_lookup hc hs h33 ht h2 stale1 x.1 x.2 (rand k) (by rw [hsuite]; exact hr k)
      (by rw [hsuite]; exact he x hx) (hlen' x hx).1 (hlen' x hx).2 h0 h32 (hno x hx)
  generalize credentials parts' = creds at hquery
  have hrun : ∀ k, queryCreds cargs.showPassword
      (fun k u p => Query E cfg.toConfig (deliver s kv stale1 (ascii "/evaluate")) u p (rand k)) k creds =
      (creds.flatMap (fun x => idealLine cargs.showPassword db x.1 x.2), .ok) := by
    induction creds with
    | nil => intro k; rfl
    | cons x creds ih =>
      intro k
      obtain ⟨u, p⟩ := x
      have hq := hquery k (u, p) List.mem_cons_self
      dsimp only at hq
      rw [queryCreds]
      rw [hq, List.flatMap_cons, idealLine]
      dsimp only
      have := ih (fun k x hx => hquery k x (List.mem_cons_of_mem _ hx)) (k + 1)
      cases lookup db u p with
      | none => dsimp only; rw [this]
      | some y => dsimp only; rw [this]
  rw [hrun 0]
  rfl

/-- C60: a credential of the server's file, a variant of one, or its username with the empty password (if usernames are
stored) is never reported clean: its line in the output says that the password, a similar one, or the username is in a
breach, with the server's metadata. -/
theorem C60_breached_reported {md : Bytes} {n : Int} {uv : Bool} {variants : Bytes → List Bytes}
    {creds : List (Bytes × Bytes)} {u p q : Bytes} (hin : (u, q) ∈ creds)
    (hq : p = q ∨ p ∈ variants q ∨ uv = true ∧ p = []) (show_ : Bool) :
    ∃ st, (st = InBreach ∨ st = SimilarInBreach ∨ st = UsernameInBreach) ∧
      idealLine show_ (storedAll md n uv variants creds) u p = clientObject show_ u p st (some md) ++ [10] := by
  have hall : ∀ x ∈ storedAll md n uv variants creds, (x.flag = 1 ∨ x.flag = 2 ∨ x.flag = 3) ∧ x.metadata = md := by
    intro x hx
    obtain ⟨c, -, hx⟩ := List.mem_flatMap.mp hx
    unfold Record.stored at hx
    simp only [List.mem_append, List.mem_cons, List.not_mem_nil, or_false, List.mem_map] at hx
    rcases hx with (rfl | ⟨v, -, rfl⟩) | hx
    · exact ⟨.inl rfl, rfl⟩
    · exact ⟨.inr (.inl rfl), rfl⟩
    · split at hx
      · rw [List.mem_singleton] at hx; subst hx; exact ⟨.inr (.inr rfl), rfl⟩
      · cases hx
  have hex : ∃ x ∈ storedAll md n uv variants creds, x.username = u ∧ x.password = p := by
    rcases hq with rfl | hq | ⟨rfl, rfl⟩
    · refine ⟨⟨u, p, 1, md⟩, List.mem_flatMap.mpr ⟨(u, p), hin, ?_⟩, rfl, rfl⟩
      unfold Record.stored
      simp
    · refine ⟨⟨u, p, 2, md⟩, List.mem_flatMap.mpr ⟨(u, q), hin, ?_⟩, rfl, rfl⟩
      unfold Record.stored
      simp [hq]
    · refine ⟨⟨u, [], 3, md⟩, List.mem_flatMap.mpr ⟨(u, q), hin, ?_⟩, rfl, rfl⟩
      unfold Record.stored
      simp
  have hsome : (lookup (storedAll md n uv variants creds) u p).isSome = true := by
    unfold lookup
    rw [List.find?_isSome]
    obtain ⟨x, h1, h2⟩ := hex
    exact ⟨x, h1, by simpa using h2⟩
  obtain ⟨x, hx⟩ := Option.isSome_iff_exists.mp hsome
  have hmem : x ∈ storedAll md n uv variants creds := List.mem_of_find?_eq_some hx
  obtain ⟨hf, hm⟩ := hall x hmem
  refine ⟨MetadataType.toBreachStatus x.flag, ?_, ?_⟩
  · rcases hf with h | h | h <;> rw [h] <;> decide
  · unfold idealLine
    rw [hx]
    dsimp only
    rw [hm]

/-- The file of the example: a credential with a carriage return, a line without colon, an unterminated line. -/
theorem example_reads : ReadsAs (ascii "user:password1\r\nbroken\n") [some (ascii "user", ascii "password1"), none] ∧
    ReadsAs (ascii "\nuser:password") [none, some (ascii "user", ascii "password")] := by
  constructor
  · refine ⟨[ascii "user:password1\r", ascii "broken"], [ascii "user:password1", ascii "broken"], ?_, ?_, ?_⟩
    · exact .line (ascii "user:password1\r") (ascii "broken\n") _ (by decide)
        (.line (ascii "broken") [] _ (by decide) .empty)
    · have : ([ascii "user:password1\r", ascii "broken"] : List Bytes).takeWhile (fun l => l.length ≤ 65535) =
        [ascii "user:password1\r", ascii "broken"] := by decide
      rw [this]
      exact .cons (dropCR_chomped _) (.cons (dropCR_chomped _) .nil)
    · exact .cons ⟨rfl, by decide⟩ (.cons (by unfold IsPart; decide) .nil)
  · refine ⟨[[], ascii "user:password"], [[], ascii "user:password"], ?_, ?_, ?_⟩
    · exact .line [] _ _ (by decide) (.last _ (by decide) (by decide))
    · have : ([[], ascii "user:password"] : List Bytes).takeWhile (fun l => l.length ≤ 65535) =
        [[], ascii "user:password"] := by decide
      rw [this]
      exact .cons (dropCR_chomped []) (.cons (dropCR_chomped _) .nil)
    · exact .cons (by unfold IsPart; decide) (.cons ⟨rfl, by decide⟩ .nil)

/-- C60, a complete concrete run: the server program on a file with one credential and one broken line, and the client
program asking for another password of the user that is a variant of the breached one. -/
theorem C60_example (stale stale1 stale2 : Nat → Nat → UInt8) (chunk chunk' : Nat → Nat)
    (rand : Nat → (S : Suite) → ZMod S.q) (hr : ∀ i, rand i Example.server.suite ≠ 0) :
    ∃ kv, serverMain Example.ext ⟨none, false, ascii "A", 2, false, some (ascii "user:password1\r\nbroken\n")⟩ ⟨7⟩
        stale chunk = .serving Example.server kv 1 1 ∧
      clientMain Example.ext ⟨none, false, false, some (ascii "\nuser:password")⟩
        (deliver Example.server kv stale1 (ascii "/config") [])
        (fun _ => deliver Example.server kv stale1 (ascii "/evaluate")) rand stale2 chunk' =
      ⟨ascii "{\"username\":\"user\",\"status\":\"similar password in breach\",\"metadata\":\"A\"}\n", false, .ok⟩ := by
  obtain ⟨variants, kv, hv, h1, h2⟩ := C60_end_to_end (E := Example.ext) (cfg := Example.cfg) (s := Example.server)
    (args := ⟨none, false, ascii "A", 2, false, some (ascii "user:password1\r\nbroken\n")⟩) (key := ⟨7⟩)
    (stale := stale) (chunk := chunk) (stale1 := stale1) (stale2 := stale2) (chunk' := chunk') (rand := rand)
    rfl Example.newServer_eq rfl rfl (by decide) (by decide) example_tweak (by decide) (by decide) (by decide)
    example_reads.1
    (by
      intro x hx
      have : x = (ascii "user", ascii "password1") := by simpa [credentials] using hx
      rw [this]; decide) rfl
    (cargs := ⟨none, false, false, some (ascii "\nuser:password")⟩) rfl rfl rfl example_reads.2 hr
    (fun x _ => toy_hash_ne _)
  refine ⟨kv, h1, ?_⟩
  have hvar : variants (ascii "password1") = [ascii "Password1", ascii "password"] := by
    have h2 : mutate dasRules (ascii "password1") 2 = .ok [ascii "Password1", ascii "password"] := by
      decide +kernel
    have h3 := hv (ascii "password1")
    dsimp only at h3
    exact Res.ok.inj (h3.symm.trans h2)
  have hdb : storedAll (ascii "A") 2 false variants [(ascii "user", ascii "password1")] =
      [⟨ascii "user", ascii "password1", 1, ascii "A"⟩, ⟨ascii "user", ascii "Password1", 2, ascii "A"⟩,
       ⟨ascii "user", ascii "password", 2, ascii "A"⟩] := by
    unfold storedAll Record.stored
    rw [List.flatMap_singleton]
    dsimp only
    rw [hvar]
    simp only [List.map_cons, List.map_nil, Bool.false_eq_true, if_false, List.append_nil, List.cons_append,
      List.nil_append]
  have e1 : credentials [some (ascii "user", ascii "password1"), none] = [(ascii "user", ascii "password1")] := rfl
  have e2 : credentials [none, some (ascii "user", ascii "password")] = [(ascii "user", ascii "password")] := rfl
  rw [e1, e2] at h2
  dsimp only at h2
  rw [hdb] at h2
  rw [h2 (by
    intro x hx y hy
    rw [List.mem_singleton] at hx
    subst hx
    simp only [List.mem_cons, List.not_mem_nil, or_false] at hy
    rcases hy with rfl | rfl | rfl
    · exact example_no_collision _ _ _ _ (by decide) (by decide) example_tags.1
    · exact example_no_collision _ _ _ _ (by decide) (by decide) example_tags.2
    · exact fun h => h.1 ⟨rfl, rfl⟩)]
  decide +kernel

/-! ## C61: dumping and reloading configurations -/

theorem setMembers_inv {T : Type} {P : T → Prop} {fields : List (JField T)}
    (h : ∀ f ∈ fields, ∀ st v t, P t → P (f.set st v t).1) (stale : Nat → Nat → UInt8)
    (ms : List (GoString × JVal)) (t : T) (ht : P t) : P (setMembers fields stale ms t).1 := by
  induction ms generalizing t with
  | nil => exact ht
  | cons m ms ih =>
    obtain ⟨k, v⟩ := m
    rw [setMembers]
    cases hl : lookupField fields k with
    | none => exact ih t ht
    | some f =>
      have hf : f ∈ fields := by
        unfold lookupField at hl
        split at hl
        · rename_i g hg
          injection hl with hl
          exact hl ▸ List.mem_of_find?_eq_some hg
        · exact List.mem_of_find?_eq_some hl
      exact ih _ (h f hf _ _ _ ht)

theorem setStruct_inv {T : Type} {P : T → Prop} {fields : List (JField T)}
    (h : ∀ f ∈ fields, ∀ st v t, P t → P (f.set st v t).1) (stale : Nat → Nat → UInt8) (v : JVal) (t : T)
    (ht : P t) : P (setStruct fields stale v t).1 := by
  unfold setStruct
  split
  · exact setMembers_inv h stale _ t ht
  · exact ht
  · exact ht

theorem setInt_inv (v : JVal) (old : Int) (h : IsGoInt old) : IsGoInt (setInt v old).1 := by
  unfold setInt
  split
  · exact h
  · rename_i lit
    cases hp : parseInt lit with
    | none => exact h
    | some n =>
      dsimp only
      unfold parseInt at hp
      cases lit with
      | nil => cases hp
      | cons x ds =>
        dsimp only at hp
        split at hp
        · split at hp
          · rename_i h2
            injection hp with hp
            have := h2.2.2
            constructor <;> omega
          · cases hp
        · split at hp
          · rename_i h2
            injection hp with hp
            have := h2.2
            constructor <;> omega
          · cases hp
  · exact h

theorem configFields_inv {T : Type} (get : T → Config) (put : T → Config → T)
    (hgp : ∀ t c, get (put t c) = c) : ∀ f ∈ configFields get put, ∀ st v t,
      IsGoInt (get t).bucketIDBitSize → IsGoInt (get (f.set st v t).1).bucketIDBitSize := by
  intro f hf st v t h
  simp only [configFields, List.mem_cons, List.not_mem_nil, or_false] at hf
  rcases hf with rfl | rfl | rfl | rfl | rfl | rfl
  · dsimp only; rw [hgp]; exact h
  · dsimp only; rw [hgp]; exact setInt_inv _ _ h
  · dsimp only; rw [hgp]; exact h
  · dsimp only; rw [hgp]; exact h
  · dsimp only; rw [hgp]; exact h
  · dsimp only; rw [hgp]; exact h

/-- A configuration that has been read fits Go's types. -/
theorem clientConfig_goInt {config : Option (Option Bytes)} {get : Transport} {stale : Nat → Nat → UInt8}
    {ccfg : Config} (h : clientConfig config get stale = some ccfg) : IsGoInt ccfg.bucketIDBitSize := by
  have h0 : IsGoInt Config.zero.bucketIDBitSize := by decide
  have hinv := configFields_inv (T := Config) id (fun _ c => c) (fun _ _ => rfl)
  have h1 : ∀ data, IsGoInt (Config.unmarshalJSON stale data Config.zero).1.bucketIDBitSize := by
    intro data
    unfold Config.unmarshalJSON unmarshalStruct
    cases parse data with
    | none => exact h0
    | some v => exact setStruct_inv (P := fun c : Config => IsGoInt c.bucketIDBitSize) hinv stale v _ h0
  have h2 : ∀ data, IsGoInt (Config.decodeJSON stale data Config.zero).1.bucketIDBitSize := by
    intro data
    unfold Config.decodeJSON decodeStruct
    cases parseFirst ⟨[], .value⟩ data with
    | none => exact h0
    | some v => exact setStruct_inv (P := fun c : Config => IsGoInt c.bucketIDBitSize) hinv stale v _ h0
  unfold clientConfig at h
  split at h
  · cases h
  · dsimp only at h
    split at h
    · cases h
    · injection h with h; rw [← h]; exact h1 _
  · split at h
    · cases h
    · split at h
      · cases h
      · split at h
        · cases h
        · dsimp only at h
          split at h
          · cases h
          · injection h with h; rw [← h]; exact h2 _

theorem serverConfig_goInt {config : Option (Option Bytes)} {key : PrivateKey} {stale : Nat → Nat → UInt8}
    (h : serverConfig E config key stale = some cfg) : IsGoInt cfg.bucketIDBitSize := by
  have hinv : ∀ f ∈ auxFields, ∀ st v (t : AuxServerConfig),
      IsGoInt t.bucketIDBitSize → IsGoInt (f.set st v t).1.bucketIDBitSize := by
    intro f hf st v t ht
    rcases List.mem_append.mp hf with hf | hf
    · exact configFields_inv (T := AuxServerConfig) (fun a => a.toConfig) (fun a c => { a with toConfig := c })
        (fun _ _ => rfl) f hf st v t ht
    · rw [List.mem_singleton] at hf
      rw [hf]
      exact ht
  unfold serverConfig at h
  split at h
  · injection h with h
    rw [← h]
    show IsGoInt (DefaultServerConfig key).bucketIDBitSize
    exact (by decide : IsGoInt 20)
  · cases h
  · rename_i data
    split at h
    · rename_i cfg' hu
      injection h with h
      subst h
      unfold ServerConfig.unmarshalJSON at hu
      dsimp only at hu
      split at hu
      · cases hu
      · split at hu
        · cases hu
        · injection hu with hu
          rw [← hu]
          dsimp only
          unfold unmarshalStruct
          cases parse data with
          | none => exact (by decide : IsGoInt 0)
          | some v =>
            exact setStruct_inv (P := fun c : AuxServerConfig => IsGoInt c.bucketIDBitSize) hinv stale v _
              (by decide : IsGoInt 0)
    · cases h

/-- C61: the configuration printed by the server's `-dump-config`, given back with `-config`, makes the server do exactly
what it does with the original one, key included. -/
theorem C61_server_reload (args : ServerArgs) (key key' : PrivateKey) (stale stale' : Nat → Nat → UInt8)
    (chunk : Nat → Nat) (hcfg : serverConfig E args.config key stale = some cfg) (hs : NewServer E cfg = .ok s) :
    ∃ out, serverMain E { args with dumpConfig := true } key stale chunk = .dumped out ∧
      serverMain E { args with config := some (some out) } key' stale' chunk =
        serverMain E args key stale chunk := by
  have hb := serverConfig_goInt hcfg
  refine ⟨cfg.marshalJSON E, ?_, ?_⟩
  · unfold serverMain
    rw [hcfg]
    rfl
  · have hk := ((C12_newServer_iff cfg).mp ⟨s, hs⟩).2.2.2.2
    have : serverConfig E (some (some (cfg.marshalJSON E))) key' stale' = some cfg := by
      unfold serverConfig
      dsimp only
      rw [C53_server_config_key E cfg hb hk]
    unfold serverMain
    dsimp only
    rw [this, hcfg]

/-- C61: likewise for the client. -/
theorem C61_client_reload (args : ClientArgs) (get get' : Transport) (post : Nat → Bytes → Transport)
    (rand : Nat → (S : Suite) → ZMod S.q) (stale stale' : Nat → Nat → UInt8) (chunk : Nat → Nat) (ccfg : Config)
    (hcfg : clientConfig args.config get stale = some ccfg) :
    ∃ out, clientMain E { args with dumpConfig := true } get post rand stale chunk = ⟨out, false, .ok⟩ ∧
      clientMain E { args with config := some (some out) } get' post rand stale' chunk =
        clientMain E args get post rand stale chunk := by
  have hb := clientConfig_goInt hcfg
  refine ⟨ccfg.marshalJSON, ?_, ?_⟩
  · unfold clientMain
    dsimp only
    rw [hcfg]
    rfl
  · have : clientConfig (some (some ccfg.marshalJSON)) get' stale' = some ccfg := by
      unfold clientConfig
      dsimp only
      rw [(C53_config ccfg Config.zero hb stale').1]
      rfl
    unfold clientMain
    dsimp only
    rw [this, hcfg]

end Migp.Props
