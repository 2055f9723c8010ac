import Verif.Spec.Verdict
import Verif.Props.Programs
/-!
# C83: what the lines of the server's file, their order and the flags decide

`Spec.fileVerdict` reads the file line by line. The two programs print just that; the rest are facts about it.
-/
namespace Migp.Props
open Spec Bufio Http Mutator

/-- The status that the client program prints for a verdict. -/
def _root_.Migp.Spec.Verdict.status : Verdict → BreachStatus
  | .clean => NotInBreach
  | .password => InBreach
  | .similar => SimilarInBreach
  | .username => UsernameInBreach

/-- The four texts. -/
example : [Verdict.clean, .password, .similar, .username].map (fun v => BreachStatus.toString v.status) =
    ["password not in breach", "password in breach", "similar password in breach", "username in breach"] := by decide

/-- What the client program prints for a verdict: there is metadata exactly with a breach. -/
def verdictLine (show_ : Bool) (metadata u p : Bytes) (v : Verdict) : Bytes :=
  clientObject show_ u p v.status (if v = .clean then none else some metadata) ++ [10]

section
variable {uv : Bool} {sim : Bytes → List Bytes}

theorem lookup_append (a b : List Stored) (u p : Bytes) :
    lookup (a ++ b) u p = (lookup a u p).or (lookup b u p) := by
  unfold lookup
  rw [List.find?_append]

/-- The entries that a line leaves. -/
theorem lookup_record (md : Bytes) (n : Int) (u' q u p : Bytes) :
    lookup (Record.stored ⟨u', q, md, n, uv⟩ (sim q)) u p =
      if u' = u ∧ lineVerdict uv sim q p ≠ .clean then
        some ⟨u, p, match lineVerdict uv sim q p with | .password => 1 | .similar => 2 | _ => 3, md⟩
      else none := by
  by_cases hu : u' = u
  · subst hu
    unfold Record.stored
    rw [lookup_append, lookup_append]
    dsimp only
    have h1 : lookup [⟨u', q, 1, md⟩] u' p = if p = q then some ⟨u', q, 1, md⟩ else none := by
      unfold lookup
      rw [List.find?_cons]
      by_cases h : p = q
      · subst h; simp
      · rw [if_neg h]
        have : decide (u' = u' ∧ q = p) = false := by simpa using fun e => h e.symm
        dsimp only
        rw [this]
        rfl
    have h2 : ∀ l : List Bytes, lookup (l.map (fun v => ⟨u', v, 2, md⟩)) u' p = if p ∈ l then some ⟨u', p, 2, md⟩ else none := by
      intro l
      induction l with
      | nil => rfl
      | cons v l ih =>
        unfold lookup at ih ⊢
        rw [List.map_cons, List.find?_cons]
        by_cases h : v = p
        · subst h; simp
        · have : decide (u' = u' ∧ v = p) = false := by simpa using h
          dsimp only
          rw [this]
          dsimp only
          rw [ih]
          have he : p ∈ v :: l ↔ p ∈ l := by
            rw [List.mem_cons]
            exact ⟨fun h' => h'.resolve_left (fun e => h e.symm), .inr⟩
          simp only [he]
    have h3 : lookup (if uv = true then [⟨u', [], 3, md⟩] else []) u' p =
        if uv = true ∧ p = [] then some ⟨u', [], 3, md⟩ else none := by
      cases uv with
      | false => rfl
      | true =>
        unfold lookup
        rw [if_pos rfl, List.find?_cons]
        by_cases h : p = []
        · subst h; simp
        · have : decide (u' = u' ∧ ([] : Bytes) = p) = false := by simpa using fun e : [] = p => h e.symm
          dsimp only
          rw [this, if_neg (fun h' => h h'.2)]
          rfl
    rw [h1, h2, h3]
    unfold lineVerdict
    by_cases e1 : p = q
    · subst e1; simp
    · by_cases e2 : p ∈ sim q
      · simp [e1, e2]
      · by_cases e3 : uv = true ∧ p = []
        · simp only [if_neg e1, if_neg e2, if_pos e3]
          rw [if_pos ⟨trivial, nofun⟩, e3.2]
          rfl
        · simp only [if_neg e1, if_neg e2, if_neg e3]
          rw [if_neg (fun h => h.2 rfl)]
          rfl
  · rw [if_neg (fun h => hu h.1)]
    unfold lookup
    rw [List.find?_eq_none]
    intro x hx
    have hxu : x.username = u' := by
      unfold Record.stored at hx
      simp only [List.mem_append, List.mem_cons, List.not_mem_nil, or_false, List.mem_map] at hx
      rcases hx with (rfl | ⟨v, -, rfl⟩) | hx
      · rfl
      · rfl
      · split at hx
        · rw [List.mem_singleton] at hx; subst hx; rfl
        · cases hx
    simp only [decide_eq_true_eq, not_and]
    intro h
    exact absurd (hxu.symm.trans h) hu

/-- The plain list of stored credentials, read line by line. -/
theorem lookup_verdict (md : Bytes) (n : Int) (creds : List (Bytes × Bytes)) (u p : Bytes) :
    lookup (storedAll md n uv sim creds) u p =
      match fileVerdict uv sim creds u p with
      | .clean => none
      | .password => some ⟨u, p, 1, md⟩
      | .similar => some ⟨u, p, 2, md⟩
      | .username => some ⟨u, p, 3, md⟩ := by
  induction creds with
  | nil => rfl
  | cons c creds ih =>
    obtain ⟨u', q⟩ := c
    unfold storedAll at ih ⊢
    rw [List.flatMap_cons, lookup_append, lookup_record, fileVerdict]
    by_cases h : u' = u ∧ lineVerdict uv sim q p ≠ .clean
    · rw [if_pos h, if_pos h]
      cases hv : lineVerdict uv sim q p with
      | clean => exact absurd hv h.2
      | password => rfl
      | similar => rfl
      | username => rfl
    · rw [if_neg h, if_neg h, Option.none_or, ih]

theorem ideal_verdict (show_ : Bool) (md : Bytes) (n : Int) (creds : List (Bytes × Bytes)) (u p : Bytes) :
    idealLine show_ (storedAll md n uv sim creds) u p = verdictLine show_ md u p (fileVerdict uv sim creds u p) := by
  unfold idealLine verdictLine
  rw [lookup_verdict]
  cases fileVerdict uv sim creds u p <;> rfl

end

section
variable {E : Ext} {cfg : ServerConfig} {s : Server}

/-- C83: the server program on a file, the client program on another, the client taking its configuration from the server: for
each credential of the client's file the client prints the verdict of the server's file, read line by line. Neither the
configuration nor the key has any influence on it, and of the flags of the server the metadata is only passed on. (Assumptions as
for C60.) -/
theorem C83_program {args : ServerArgs} {key : PrivateKey} {stale : Nat → Nat → UInt8} {chunk : Nat → Nat}
    {file : Bytes} (hcfg : serverConfig E args.config key stale = some cfg) (hs : NewServer E cfg = .ok s)
    (hd : args.dumpConfig = false) (hf : args.infile = some file)
    (h0 : 0 ≤ cfg.bucketIDBitSize) (h32 : cfg.bucketIDBitSize ≤ 32)
    (ht : Spec.tweak s.suite s.privateKey ≠ 0) (hm : args.metadata.length ≤ 8160)
    (hn0 : 0 ≤ args.numVariants) (hn1 : args.numVariants ≤ maxSliceCap)
    {parts : List (Option (Bytes × Bytes))} (hp : ReadsAs file parts)
    (hlen : ∀ x ∈ credentials parts, x.2.length ≤ 49152) (h33 : s.suite.elemLen = 33)
    {cargs : ClientArgs} {rand : Nat → (S : Suite) → ZMod S.q} {stale1 stale2 : Nat → Nat → UInt8}
    {chunk' : Nat → Nat} {file' : Bytes} (hcc : cargs.config = none) (hcd : cargs.dumpConfig = false)
    (hcf : cargs.infile = some file') {parts' : List (Option (Bytes × Bytes))} (hp' : ReadsAs file' parts')
    (hr : ∀ i, rand i s.suite ≠ 0)
    (he : ∀ x ∈ credentials parts', s.suite.hashToElement (Spec.oprfInput E cfg.slowHasherID x.1 x.2) ≠ 0) :
    ∃ (similarTo : Bytes → List Bytes) (kv : KV) (a b : Nat),
      (∀ p, mutate dasRules p args.numVariants = .ok (similarTo p)) ∧
      serverMain E args key stale chunk = .serving s kv a b ∧
      ((∀ x ∈ credentials parts', ∀ y ∈ storedAll args.metadata args.numVariants args.usernameVariant similarTo (credentials parts),
          ¬ TagCollision E s y x.1 x.2) →
        clientMain E cargs (deliver s kv stale1 (ascii "/config") [])
            (fun _ => deliver s kv stale1 (ascii "/evaluate")) rand stale2 chunk' =
          { stdout := (credentials parts').flatMap (fun x => verdictLine cargs.showPassword args.metadata x.1 x.2
              (fileVerdict args.usernameVariant similarTo (credentials parts) x.1 x.2)),
            warned := decide (cfg.version ≠ 1), exit := .ok }) := by
  obtain ⟨variants, kv, hv, h1, h2⟩ := C60_end_to_end (chunk := chunk) (stale1 := stale1) (stale2 := stale2) (chunk' := chunk')
    hcfg hs hd hf h0 h32 ht hm hn0 hn1 hp hlen h33 hcc hcd hcf hp' hr he
  refine ⟨variants, kv, _, _, hv, h1, fun hno => ?_⟩
  rw [h2 hno]
  congr 2
  funext x
  exact ideal_verdict _ _ _ _ _ _

end

/-- C83_program, the run of `C60_example`: the verdict on `user:password` is that a similar password is in the breach. -/
example (stale stale1 stale2 : Nat → Nat → UInt8) (chunk chunk' : Nat → Nat)
    (rand : Nat → (S : Suite) → ZMod S.q) (hr : ∀ i, rand i Example.server.suite ≠ 0) :
    ∃ (similarTo : Bytes → List Bytes) (kv : KV) (a b : Nat), (∀ p, mutate dasRules p 2 = .ok (similarTo p)) ∧
      serverMain Example.ext ⟨none, false, ascii "A", 2, false, some (ascii "user:password1\r\nbroken\n")⟩ ⟨7⟩
        stale chunk = .serving Example.server kv a b ∧
      fileVerdict false similarTo [(ascii "user", ascii "password1")] (ascii "user") (ascii "password") = .similar ∧
      clientMain Example.ext ⟨none, false, false, some (ascii "\nuser:password")⟩
        (deliver Example.server kv stale1 (ascii "/config") [])
        (fun _ => deliver Example.server kv stale1 (ascii "/evaluate")) rand stale2 chunk' =
      ⟨verdictLine false (ascii "A") (ascii "user") (ascii "password")
        (fileVerdict false similarTo [(ascii "user", ascii "password1")] (ascii "user") (ascii "password")), false, .ok⟩ := by
  obtain ⟨variants, kv, a, b, hv, h1, h2⟩ := C83_program (E := Example.ext) (cfg := Example.cfg) (s := Example.server)
    (args := ⟨none, false, ascii "A", 2, false, some (ascii "user:password1\r\nbroken\n")⟩) (key := ⟨7⟩)
    (stale := stale) (chunk := chunk) (stale1 := stale1) (stale2 := stale2) (chunk' := chunk') (rand := rand)
    rfl Example.newServer_eq rfl rfl (by decide) (by decide) example_tweak (by decide) (by decide) (by decide)
    example_reads.1
    (by
      intro x hx
      have : x = (ascii "user", ascii "password1") := by simpa [credentials] using hx
      rw [this]; decide) rfl
    (cargs := ⟨none, false, false, some (ascii "\nuser:password")⟩) rfl rfl rfl example_reads.2 hr
    (fun x _ => toy_hash_ne _)
  have hvar : variants (ascii "password1") = [ascii "Password1", ascii "password"] := by
    have h2 : mutate dasRules (ascii "password1") 2 = .ok [ascii "Password1", ascii "password"] := by
      decide +kernel
    have h3 := hv (ascii "password1")
    dsimp only at h3
    exact Res.ok.inj (h3.symm.trans h2)
  have hdb : storedAll (ascii "A") 2 false variants [(ascii "user", ascii "password1")] =
      [⟨ascii "user", ascii "password1", 1, ascii "A"⟩, ⟨ascii "user", ascii "Password1", 2, ascii "A"⟩,
       ⟨ascii "user", ascii "password", 2, ascii "A"⟩] := by
    unfold storedAll Record.stored
    rw [List.flatMap_singleton]
    dsimp only
    rw [hvar]
    simp only [List.map_cons, List.map_nil, Bool.false_eq_true, if_false, List.append_nil, List.cons_append,
      List.nil_append]
  have e1 : credentials [some (ascii "user", ascii "password1"), none] = [(ascii "user", ascii "password1")] := rfl
  have e2 : credentials [none, some (ascii "user", ascii "password")] = [(ascii "user", ascii "password")] := rfl
  refine ⟨variants, kv, a, b, hv, h1, ?_, ?_⟩
  · unfold fileVerdict lineVerdict
    rw [hvar, fileVerdict]
    decide
  rw [e1, e2] at h2
  dsimp only at h2
  rw [hdb] at h2
  rw [h2 (by
    intro x hx y hy
    rw [List.mem_singleton] at hx
    subst hx
    simp only [List.mem_cons, List.not_mem_nil, or_false] at hy
    rcases hy with rfl | rfl | rfl
    · exact example_no_collision _ _ _ _ (by decide) (by decide) example_tags.1
    · exact example_no_collision _ _ _ _ (by decide) (by decide) example_tags.2
    · exact fun h => h.1 ⟨rfl, rfl⟩)]
  rw [List.flatMap_singleton]
  rfl

/-! ## The lines of the file -/

section
variable (uv : Bool) (sim : Bytes → List Bytes)

/-- C83: nothing is said about `u:p` exactly if no line of `u` has this password or one it is similar to, and, if usernames are
told and the password is empty, `u` has no line. -/
theorem C83_clean (creds : List (Bytes × Bytes)) (u p : Bytes) :
    fileVerdict uv sim creds u p = .clean ↔
      ∀ q, (u, q) ∈ creds → q ≠ p ∧ p ∉ sim q ∧ ¬ (uv = true ∧ p = []) := by
  have hl : ∀ q, lineVerdict uv sim q p = .clean ↔ q ≠ p ∧ p ∉ sim q ∧ ¬ (uv = true ∧ p = []) := by
    intro q
    unfold lineVerdict
    by_cases e1 : p = q
    · rw [if_pos e1]
      exact ⟨nofun, fun h => absurd e1.symm h.1⟩
    · rw [if_neg e1]
      by_cases e2 : p ∈ sim q
      · rw [if_pos e2]
        exact ⟨nofun, fun h => absurd e2 h.2.1⟩
      · rw [if_neg e2]
        by_cases e3 : uv = true ∧ p = []
        · rw [if_pos e3]
          exact ⟨nofun, fun h => absurd e3 h.2.2⟩
        · rw [if_neg e3]
          exact ⟨fun _ => ⟨fun h => e1 h.symm, e2, e3⟩, fun _ => rfl⟩
  induction creds with
  | nil => exact ⟨fun _ q h => (List.not_mem_nil h).elim, fun _ => rfl⟩
  | cons c creds ih =>
    obtain ⟨u', q⟩ := c
    rw [fileVerdict]
    by_cases h : u' = u ∧ lineVerdict uv sim q p ≠ .clean
    · rw [if_pos h]
      obtain ⟨rfl, h⟩ := h
      exact ⟨fun h' => absurd h' h, fun h' => absurd ((hl q).mpr (h' q List.mem_cons_self)) h⟩
    · rw [if_neg h]
      refine ih.trans ⟨fun h' q' hq' => ?_, fun h' q' hq' => h' q' (List.mem_cons_of_mem _ hq')⟩
      rcases List.mem_cons.mp hq' with e | hq'
      · obtain ⟨rfl, rfl⟩ := Prod.mk.inj e
        by_cases hq : lineVerdict uv sim q' p = .clean
        · exact (hl q').mp hq
        · exact absurd ⟨rfl, hq⟩ h
      · exact h' q' hq'

/-- C83: only the lines of the user count. -/
theorem C83_other_users (creds : List (Bytes × Bytes)) (u p : Bytes) :
    fileVerdict uv sim creds u p = fileVerdict uv sim (creds.filter (fun c => c.1 = u)) u p := by
  induction creds with
  | nil => rfl
  | cons c creds ih =>
    obtain ⟨u', q⟩ := c
    by_cases h : u' = u
    · rw [List.filter_cons_of_pos (by simpa using h), fileVerdict, fileVerdict, ih]
    · rw [List.filter_cons_of_neg (by simpa using h), fileVerdict, if_neg (fun h' => h h'.1), ih]

/-- C83: earlier lines come first. What is said about a credential never changes when lines are added at the end, unless nothing
was said. -/
theorem C83_append (creds more : List (Bytes × Bytes)) (u p : Bytes) :
    fileVerdict uv sim (creds ++ more) u p =
      if fileVerdict uv sim creds u p = .clean then fileVerdict uv sim more u p else fileVerdict uv sim creds u p := by
  induction creds with
  | nil => rfl
  | cons c creds ih =>
    obtain ⟨u', q⟩ := c
    rw [List.cons_append, fileVerdict, fileVerdict]
    by_cases h : u' = u ∧ lineVerdict uv sim q p ≠ .clean
    · rw [if_pos h, if_pos h, if_neg h.2]
    · rw [if_neg h, if_neg h, ih]

/-- C83: wherever lines are added, a credential that something was said about is not reported clean afterwards; and the order of
the lines makes no difference to which credentials are reported clean. -/
theorem C83_more_lines (creds creds' : List (Bytes × Bytes)) (u p : Bytes) (h : ∀ c ∈ creds, c.1 = u → c ∈ creds')
    (hv : fileVerdict uv sim creds u p ≠ .clean) : fileVerdict uv sim creds' u p ≠ .clean := by
  intro hc
  rw [C83_clean] at hc
  exact hv ((C83_clean uv sim creds u p).mpr (fun q hq => hc q (h _ hq rfl)))

/-- What is said is what one of the lines says. -/
theorem verdict_line (creds : List (Bytes × Bytes)) (u p : Bytes) (hv : fileVerdict uv sim creds u p ≠ .clean) :
    ∃ q, (u, q) ∈ creds ∧ lineVerdict uv sim q p = fileVerdict uv sim creds u p := by
  induction creds with
  | nil => exact absurd rfl hv
  | cons c creds ih =>
    obtain ⟨u', q⟩ := c
    rw [fileVerdict] at hv ⊢
    by_cases h : u' = u ∧ lineVerdict uv sim q p ≠ .clean
    · rw [if_pos h]
      exact ⟨q, h.1 ▸ List.mem_cons_self, rfl⟩
    · rw [if_neg h] at hv ⊢
      obtain ⟨q', h1, h2⟩ := ih hv
      exact ⟨q', List.mem_cons_of_mem _ h1, h2⟩

/-- C83: the order of the lines of a user matters only for a password that two different lines say different things about. -/
theorem C83_order (creds creds' : List (Bytes × Bytes)) (u p : Bytes) (h : ∀ c, c.1 = u → (c ∈ creds ↔ c ∈ creds')) :
    (fileVerdict uv sim creds u p = .clean ↔ fileVerdict uv sim creds' u p = .clean) ∧
    (fileVerdict uv sim creds u p ≠ fileVerdict uv sim creds' u p →
      ∃ q q', (u, q) ∈ creds ∧ (u, q') ∈ creds ∧ q ≠ q' ∧
        lineVerdict uv sim q p = fileVerdict uv sim creds u p ∧ lineVerdict uv sim q' p = fileVerdict uv sim creds' u p ∧
        lineVerdict uv sim q p ≠ .clean ∧ lineVerdict uv sim q' p ≠ .clean) := by
  have hiff : fileVerdict uv sim creds u p = .clean ↔ fileVerdict uv sim creds' u p = .clean := by
    rw [C83_clean, C83_clean]
    exact ⟨fun h' q hq => h' q ((h (u, q) rfl).mpr hq), fun h' q hq => h' q ((h (u, q) rfl).mp hq)⟩
  refine ⟨hiff, fun hne => ?_⟩
  have h1 : fileVerdict uv sim creds u p ≠ .clean := fun e => hne (e.trans (hiff.mp e).symm)
  have h2 : fileVerdict uv sim creds' u p ≠ .clean := fun e => h1 (hiff.mpr e)
  obtain ⟨q, hq, eq⟩ := verdict_line uv sim creds u p h1
  obtain ⟨q', hq', eq'⟩ := verdict_line uv sim creds' u p h2
  refine ⟨q, q', hq, (h (u, q') rfl).mpr hq', ?_, eq, eq', eq ▸ h1, eq' ▸ h2⟩
  intro e
  subst e
  exact hne (eq.symm.trans eq')

end

/-! ## The flags -/

/-- C83: the number of variants. Raising it never turns a breach into none: what was said stays as it is, except that now a similar
password may be found (in place of nothing, of the username, or of the very password if an earlier line of the user has one that
is similar). -/
theorem C83_num_variants (uv : Bool) {n m : Int} (hnm : n ≤ m) {sim sim' : Bytes → List Bytes}
    (h1 : ∀ q, mutate dasRules q n = .ok (sim q)) (h2 : ∀ q, mutate dasRules q m = .ok (sim' q))
    (creds : List (Bytes × Bytes)) (u p : Bytes) :
    fileVerdict uv sim' creds u p = fileVerdict uv sim creds u p ∨
    fileVerdict uv sim' creds u p = .similar ∧ fileVerdict uv sim creds u p ≠ .similar ∧
      ∃ q, (u, q) ∈ creds ∧ q ≠ p ∧ p ∈ sim' q ∧ p ∉ sim q := by
  have hsub : ∀ q, ∀ x ∈ sim q, x ∈ sim' q := by
    intro q x hx
    have := C34_prefix q n m (sim q) (sim' q) hnm (h1 q) (h2 q)
    rw [this] at hx
    exact List.mem_of_mem_take hx
  clear h1 h2
  induction creds with
  | nil => exact .inl rfl
  | cons c creds ih =>
    obtain ⟨u', q⟩ := c
    rw [fileVerdict, fileVerdict]
    have ih' : fileVerdict uv sim' creds u p = fileVerdict uv sim creds u p ∨
        fileVerdict uv sim' creds u p = .similar ∧ fileVerdict uv sim creds u p ≠ .similar ∧
          ∃ q', (u, q') ∈ (u', q) :: creds ∧ q' ≠ p ∧ p ∈ sim' q' ∧ p ∉ sim q' := by
      rcases ih with h | ⟨a, b, q', h, e⟩
      · exact .inl h
      · exact .inr ⟨a, b, q', List.mem_cons_of_mem _ h, e⟩
    by_cases hu : u' = u
    · subst hu
      have same : lineVerdict uv sim' q p = lineVerdict uv sim q p → 
          (if u' = u' ∧ lineVerdict uv sim' q p ≠ .clean then lineVerdict uv sim' q p else fileVerdict uv sim' creds u' p) =
            (if u' = u' ∧ lineVerdict uv sim q p ≠ .clean then lineVerdict uv sim q p else fileVerdict uv sim creds u' p) ∨
          (if u' = u' ∧ lineVerdict uv sim' q p ≠ .clean then lineVerdict uv sim' q p else fileVerdict uv sim' creds u' p) =
            .similar ∧
          (if u' = u' ∧ lineVerdict uv sim q p ≠ .clean then lineVerdict uv sim q p else fileVerdict uv sim creds u' p) ≠
            .similar ∧ ∃ q', (u', q') ∈ (u', q) :: creds ∧ q' ≠ p ∧ p ∈ sim' q' ∧ p ∉ sim q' := by
        intro e
        rw [e]
        by_cases h : u' = u' ∧ lineVerdict uv sim q p ≠ .clean
        · rw [if_pos h, if_pos h]
          exact .inl rfl
        · rw [if_neg h, if_neg h]
          exact ih'
      by_cases e1 : p = q
      · exact same (by unfold lineVerdict; rw [if_pos e1, if_pos e1])
      by_cases e2 : p ∈ sim q
      · exact same (by unfold lineVerdict; rw [if_neg e1, if_neg e1, if_pos e2, if_pos (hsub q p e2)])
      by_cases e3 : p ∈ sim' q
      · have hs : lineVerdict uv sim' q p = .similar := by unfold lineVerdict; rw [if_neg e1, if_pos e3]
        rw [hs, if_pos ⟨rfl, nofun⟩]
        by_cases hx : (if u' = u' ∧ lineVerdict uv sim q p ≠ .clean then lineVerdict uv sim q p
            else fileVerdict uv sim creds u' p) = .similar
        · exact .inl hx.symm
        · exact .inr ⟨rfl, hx, q, List.mem_cons_self, fun e => e1 e.symm, e3, e2⟩
      · exact same (by unfold lineVerdict; rw [if_neg e1, if_neg e1, if_neg e2, if_neg e3])
    · rw [if_neg (fun h => hu h.1), if_neg (fun h => hu h.1)]
      exact ih'

/-- C83: in a file with at most one line for the user, more variants only ever add: what was said stays. -/
theorem C83_num_variants_one_line (uv : Bool) {n m : Int} (hnm : n ≤ m) {sim sim' : Bytes → List Bytes}
    (h1 : ∀ q, mutate dasRules q n = .ok (sim q)) (h2 : ∀ q, mutate dasRules q m = .ok (sim' q))
    (creds : List (Bytes × Bytes)) (u p : Bytes) (hone : ∀ q q', (u, q) ∈ creds → (u, q') ∈ creds → q = q')
    (hv : fileVerdict uv sim creds u p = .password ∨ fileVerdict uv sim creds u p = .similar) :
    fileVerdict uv sim' creds u p = fileVerdict uv sim creds u p := by
  rcases C83_num_variants uv hnm h1 h2 creds u p with h | ⟨-, hns, q, hq, hqp, -, hqs⟩
  · exact h
  · rcases hv with hv | hv
    · exfalso
      obtain ⟨q', hq', e⟩ := verdict_line uv sim creds u p (by rw [hv]; nofun)
      rw [hv] at e
      have : p = q' := by
        unfold lineVerdict at e
        by_cases h : p = q'
        · exact h
        · rw [if_neg h] at e
          split at e
          · cases e
          · split at e <;> cases e
      exact hqp ((hone q q' hq hq').trans this.symm)
    · exact absurd hv hns

/-- C83: telling usernames changes what is said about the empty password only. -/
theorem C83_username_flag (sim : Bytes → List Bytes) (creds : List (Bytes × Bytes)) (u p : Bytes) :
    (p ≠ [] → fileVerdict true sim creds u p = fileVerdict false sim creds u p) ∧
    (fileVerdict true sim creds u [] ≠ .clean ↔ ∃ q, (u, q) ∈ creds) ∧
    fileVerdict false sim creds u p ≠ .username := by
  refine ⟨fun hp => ?_, ?_, ?_⟩
  · have hl : ∀ q, lineVerdict true sim q p = lineVerdict false sim q p := by
      intro q
      unfold lineVerdict
      have h1 : ¬ (true = true ∧ p = []) := fun h => hp h.2
      have h2 : ¬ (false = true ∧ p = []) := fun h => hp h.2
      rw [if_neg h1, if_neg h2]
    induction creds with
    | nil => rfl
    | cons c creds ih =>
      obtain ⟨u', q⟩ := c
      rw [fileVerdict, fileVerdict, hl, ih]
  · constructor
    · intro h
      obtain ⟨q, hq, -⟩ := verdict_line true sim creds u [] h
      exact ⟨q, hq⟩
    · rintro ⟨q, hq⟩ h
      exact ((C83_clean true sim creds u []).mp h q hq).2.2 ⟨rfl, rfl⟩
  · intro h
    obtain ⟨q, -, e⟩ := verdict_line false sim creds u p (by rw [h]; nofun)
    rw [h] at e
    unfold lineVerdict at e
    have h2 : ¬ (false = true ∧ p = []) := fun h => by cases h.1
    rw [if_neg h2] at e
    split at e
    · cases e
    · split at e <;> cases e

/-- Only the variants of the passwords of the file count. -/
theorem verdict_congr {uv : Bool} {sim sim' : Bytes → List Bytes} {creds : List (Bytes × Bytes)} {u p : Bytes}
    (h : ∀ c ∈ creds, sim c.2 = sim' c.2) : fileVerdict uv sim creds u p = fileVerdict uv sim' creds u p := by
  induction creds with
  | nil => rfl
  | cons c creds ih =>
    obtain ⟨u', q⟩ := c
    have hl : lineVerdict uv sim q p = lineVerdict uv sim' q p := by
      unfold lineVerdict
      have hq : sim q = sim' q := h (u', q) List.mem_cons_self
      rw [hq]
    rw [fileVerdict, fileVerdict, hl, ih (fun c hc => h c (List.mem_cons_of_mem _ hc))]

/-! ## A file in which all of this matters -/

/-- Without variants the file says that the second password is in the breach; with two variants a line, that it is similar to one
that is; and with the lines the other way round, that it is in the breach again. -/
example : ∃ sim0 sim2 : Bytes → List Bytes,
    (∀ q, mutate dasRules q 0 = .ok (sim0 q)) ∧ (∀ q, mutate dasRules q 2 = .ok (sim2 q)) ∧
    fileVerdict false sim0 [(ascii "user", ascii "password1"), (ascii "user", ascii "Password1")] (ascii "user")
      (ascii "Password1") = .password ∧
    fileVerdict false sim2 [(ascii "user", ascii "password1"), (ascii "user", ascii "Password1")] (ascii "user")
      (ascii "Password1") = .similar ∧
    fileVerdict false sim2 [(ascii "user", ascii "Password1"), (ascii "user", ascii "password1")] (ascii "user")
      (ascii "Password1") = .password ∧
    fileVerdict true sim2 [(ascii "user", ascii "Password1"), (ascii "user", ascii "password1")] (ascii "user") [] = .username ∧
    fileVerdict true sim2 [(ascii "user", ascii "Password1"), (ascii "user", ascii "password1")] (ascii "other") [] = .clean := by
  obtain ⟨sim0, e0⟩ := mutate_variants 0 (by decide) (by decide)
  obtain ⟨sim2, e2⟩ := mutate_variants 2 (by decide) (by decide)
  refine ⟨sim0, sim2, e0, e2, ?_⟩
  have h0 : sim0 (ascii "password1") = [] := by
    have h : mutate dasRules (ascii "password1") 0 = .ok [] := by decide +kernel
    exact Res.ok.inj ((e0 _).symm.trans h)
  have h00 : sim0 (ascii "Password1") = [] := by
    have h : mutate dasRules (ascii "Password1") 0 = .ok [] := by decide +kernel
    exact Res.ok.inj ((e0 _).symm.trans h)
  have h1 : sim2 (ascii "password1") = [ascii "Password1", ascii "password"] := by
    have h : mutate dasRules (ascii "password1") 2 = .ok [ascii "Password1", ascii "password"] := by decide +kernel
    exact Res.ok.inj ((e2 _).symm.trans h)
  have h2 : sim2 (ascii "Password1") = [ascii "password1", ascii "Password"] := by
    have h : mutate dasRules (ascii "Password1") 2 = .ok [ascii "password1", ascii "Password"] := by decide +kernel
    exact Res.ok.inj ((e2 _).symm.trans h)
  clear e0 e2
  rw [verdict_congr (sim' := fun _ => []) (by simp [h0, h00]),
    verdict_congr (sim := sim2) (sim' := fun q => if q = ascii "password1" then [ascii "Password1", ascii "password"] else
      [ascii "password1", ascii "Password"]) (by simp [ascii]; exact ⟨h1, h2⟩),
    verdict_congr (sim := sim2) (sim' := fun q => if q = ascii "password1" then [ascii "Password1", ascii "password"] else
      [ascii "password1", ascii "Password"]) (by simp [ascii]; exact ⟨h2, h1⟩),
    verdict_congr (sim := sim2) (sim' := fun q => if q = ascii "password1" then [ascii "Password1", ascii "password"] else
      [ascii "password1", ascii "Password"]) (by simp [ascii]; exact ⟨h2, h1⟩),
    verdict_congr (sim := sim2) (sim' := fun q => if q = ascii "password1" then [ascii "Password1", ascii "password"] else
      [ascii "password1", ascii "Password"]) (by simp [ascii]; exact ⟨h2, h1⟩)]
  decide +kernel

end Migp.Props
