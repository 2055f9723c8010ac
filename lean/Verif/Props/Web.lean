import Verif.Lemmas.Web
import Verif.Props.Programs
import Verif.Props.ClientConfig
import Verif.Props.CommandLine
/-!
# C78: the target of the client program
-/
namespace Migp.Props
open Migp.Spec Migp.Bufio Migp.Json Migp.Mutator Migp.Http

variable {E : Ext} {cfg : ServerConfig} {c : Client} {s : Server}

theorem isPrefixOf?_append (a r : Bytes) : a.isPrefixOf? (a ++ r) = some r := by
  induction a with
  | nil => rfl
  | cons x xs ih => simp [List.isPrefixOf?, ih]

theorem route_of_clean {path : GoString} (h : cleanPath path = path) (t : GoString) : route path ≠ .redirect t := by
  intro hr
  exact ((C59_routes path).2.2.1 t).mp hr |>.1 h

/-- C78: the server redirects at most once: following redirects ends at the cleaned path, and a request that was redirected
arrives there without its body. -/
theorem C78_redirect_once (kv : KV) (stale : Nat → Nat → UInt8) (left : Nat) (path : GoString) (body : Bytes) :
    fetch s kv stale (left + 1) path body =
      deliver s kv stale (cleanPath path) (if cleanPath path = path then body else []) := by
  by_cases h : cleanPath path = path
  · rw [if_pos h, h]
    have hr := route_of_clean h
    unfold fetch
    cases hp : route path with
    | redirect t => exact absurd hp (hr t)
    | index => rfl
    | config => rfl
    | evaluate => rfl
  · rw [if_neg h]
    have hr : route path = .redirect (cleanPath path) := ((C59_routes path).2.2.1 _).mpr ⟨h, rfl⟩
    unfold fetch
    rw [hr]
    dsimp only
    have hr2 := route_of_clean (cleanPath_idem path)
    unfold fetch
    cases hp : route (cleanPath path) with
    | redirect t => exact absurd hp (hr2 t)
    | index => rfl
    | config => rfl
    | evaluate => rfl

theorem deliver_index (kv : KV) (stale : Nat → Nat → UInt8) {path : GoString} (body : Bytes) (h : route path = .index) :
    deliver s kv stale path body = .reply 200 (some (ascii "Welcome to the MIGP demo server\n")) := by
  unfold deliver serve
  rw [h]
  rfl

theorem deliver_config (kv : KV) (stale : Nat → Nat → UInt8) {path : GoString} (body : Bytes) (h : route path = .config) :
    deliver s kv stale path body = deliver s kv stale (ascii "/config") [] := by
  have h2 : route (ascii "/config") = .config := by decide
  unfold deliver serve
  rw [h, h2]

/-- A request for `/evaluate` without a body gets status 400, or nothing. -/
theorem deliver_evaluate_empty (kv : KV) (stale : Nat → Nat → UInt8) :
    deliver s kv stale (ascii "/evaluate") [] = .failed ∨
      ∃ b, deliver s kv stale (ascii "/evaluate") [] = .reply 400 (some b) := by
  have h2 : route (ascii "/evaluate") = .evaluate := by decide
  have hbad : (ClientRequest.unmarshalJSON stale [] ClientRequest.zero).2 = true := rfl
  unfold deliver serve
  rw [h2]
  dsimp only
  unfold handleEvaluate
  dsimp only
  rw [hbad, if_pos rfl]
  cases s.handleRequest (ClientRequest.unmarshalJSON stale [] ClientRequest.zero).1 kv.get with
  | panic p => exact .inl rfl
  | err e => exact .inr ⟨_, rfl⟩
  | ok r =>
    dsimp only
    cases r.marshalBinary with
    | panic p => exact .inl rfl
    | err e => exact .inr ⟨_, rfl⟩
    | ok b => exact .inr ⟨_, rfl⟩

theorem welcome_not_json (stale : Nat → Nat → UInt8) (c0 : Config) :
    (Config.decodeJSON stale (ascii "Welcome to the MIGP demo server\n") c0).2 = true := by
  rfl

theorem unescape_cons (c : UInt8) (r : Bytes) (h : c ≠ 37) : unescape (c :: r) = (unescape r).map (c :: ·) := by
  conv => lhs; unfold unescape
  rw [if_neg h]

theorem unescape_pct (a b : UInt8) (r : Bytes) : unescape (37 :: a :: b :: r) =
    match fromHexChar a, fromHexChar b, unescape r with
    | some x, some y, some r => some (UInt8.ofNat (x * 16 + y) :: r)
    | _, _, _ => none := by
  conv => lhs; unfold unescape
  rw [if_pos rfl]
  rfl

/-- Decoding the escapes of what is appended to a path: `/` cannot be part of an escape. -/
theorem unescape_append_slash (n : Nat) : ∀ P r x : Bytes, P.length ≤ n → unescape (P ++ 47 :: r) = some x →
    ∃ y z, unescape P = some y ∧ unescape r = some z ∧ x = y ++ 47 :: z := by
  induction n with
  | zero =>
    intro P r x hn h
    obtain rfl := List.length_eq_zero_iff.mp (Nat.le_zero.mp hn)
    rw [List.nil_append, unescape_cons _ _ (by decide)] at h
    obtain ⟨z, hz, rfl⟩ := Option.map_eq_some_iff.mp h
    exact ⟨[], z, rfl, hz, rfl⟩
  | succ n ih =>
    intro P r x hn h
    cases P with
    | nil => exact ih [] r x (Nat.zero_le _) h
    | cons c P =>
      by_cases hc : c = 37
      · subst hc
        cases P with
        | nil =>
          exfalso
          cases r with
          | nil => cases h
          | cons d r =>
            rw [List.singleton_append, unescape_pct] at h
            cases h
        | cons a P =>
          cases P with
          | nil =>
            exfalso
            rw [List.cons_append, List.singleton_append, unescape_pct] at h
            have h47 : fromHexChar 47 = none := rfl
            rw [h47] at h
            cases ha : fromHexChar a with
            | none => rw [ha] at h; cases h
            | some v => rw [ha] at h; cases h
          | cons b P =>
            rw [List.cons_append, List.cons_append, List.cons_append, unescape_pct] at h
            rw [unescape_pct]
            cases ha : fromHexChar a with
            | none => rw [ha] at h; cases h
            | some v =>
              cases hb : fromHexChar b with
              | none => rw [ha, hb] at h; cases h
              | some w =>
                cases hu : unescape (P ++ 47 :: r) with
                | none => rw [ha, hb, hu] at h; cases h
                | some t =>
                  rw [ha, hb, hu] at h
                  obtain ⟨y, z, hy, hz, rfl⟩ := ih P r t (by simp only [List.length_cons] at hn; omega) hu
                  injection h with h
                  rw [hy]
                  exact ⟨_, z, rfl, hz, by rw [← h]; rfl⟩
      · rw [List.cons_append, unescape_cons _ _ hc] at h
        obtain ⟨t, ht, rfl⟩ := Option.map_eq_some_iff.mp h
        obtain ⟨y, z, hy, hz, rfl⟩ := ih P r t (by simp only [List.length_cons] at hn; omega) ht
        exact ⟨c :: y, z, by rw [unescape_cons _ _ hc, hy]; rfl, hz, rfl⟩

theorem unescape_ne_nil {P x : Bytes} (hP : P ≠ []) (h : unescape P = some x) : x ≠ [] := by
  rintro rfl
  cases P with
  | nil => exact hP rfl
  | cons c P =>
    by_cases hc : c = 37
    · subst hc
      match P, h with
      | [], h => cases h
      | [a], h => cases h
      | a :: b :: P, h =>
        rw [unescape_pct] at h
        split at h
        · injection h with h; cases h
        · cases h
    · rw [unescape_cons _ _ hc] at h
      obtain ⟨t, -, ht⟩ := Option.map_eq_some_iff.mp h
      cases ht

/-- What a request for a URL of the server comes to. -/
theorem web_at (addr : GoString) (kv : KV) (stale : Nat → Nat → UInt8) (rest : GoString) :
    (∀ body, web addr s kv stale (ascii "http://" ++ addr ++ rest) body = .failed) ∨
    ∃ path, unescape (urlPath rest) = some path ∧ ∀ body, web addr s kv stale (ascii "http://" ++ addr ++ rest) body =
      deliver s kv stale (cleanPath (if path = [] then [47] else path))
        (if cleanPath (if path = [] then [47] else path) = (if path = [] then [47] else path) then body else []) := by
  unfold web
  rw [isPrefixOf?_append]
  dsimp only
  split
  · exact .inl fun _ => rfl
  · split
    · cases h : unescape (urlPath rest) with
      | none => exact .inl fun _ => rfl
      | some path =>
        cases h2 : unescape (urlFragment rest) with
        | none => exact .inl fun _ => rfl
        | some f =>
          refine .inr ⟨path, rfl, fun body => ?_⟩
          dsimp only
          rw [C78_redirect_once]
    · exact .inl fun _ => rfl

theorem urlPath_append (P r : Bytes) :
    urlPath (P ++ r) = if ∀ x ∈ P, x ≠ 63 ∧ x ≠ 35 then P ++ urlPath r else urlPath P := by
  unfold urlPath
  induction P with
  | nil => simp
  | cons c P ih =>
    rw [List.cons_append]
    by_cases hc : c ≠ 63 ∧ c ≠ 35
    · have hd : (fun c : UInt8 => decide (c ≠ 63 ∧ c ≠ 35)) c = true := decide_eq_true hc
      rw [List.takeWhile_cons_of_pos (p := fun c : UInt8 => decide (c ≠ 63 ∧ c ≠ 35)) hd,
        List.takeWhile_cons_of_pos (p := fun c : UInt8 => decide (c ≠ 63 ∧ c ≠ 35)) hd, ih]
      by_cases hP : ∀ x ∈ P, x ≠ 63 ∧ x ≠ 35
      · have hP' : ∀ x ∈ c :: P, x ≠ 63 ∧ x ≠ 35 := fun x hx => by
          rcases List.mem_cons.mp hx with rfl | hx
          · exact hc
          · exact hP x hx
        rw [if_pos hP, if_pos hP', List.cons_append]
      · have hP' : ¬ ∀ x ∈ c :: P, x ≠ 63 ∧ x ≠ 35 := fun h => hP fun x hx => h x (List.mem_cons_of_mem _ hx)
        rw [if_neg hP, if_neg hP']
    · have hd : ¬ (fun c : UInt8 => decide (c ≠ 63 ∧ c ≠ 35)) c = true := by simpa using hc
      have hP' : ¬ ∀ x ∈ c :: P, x ≠ 63 ∧ x ≠ 35 := fun h => hc (h c (List.mem_cons_self ..))
      rw [List.takeWhile_cons_of_neg (p := fun c : UInt8 => decide (c ≠ 63 ∧ c ≠ 35)) hd,
        List.takeWhile_cons_of_neg (p := fun c : UInt8 => decide (c ≠ 63 ∧ c ≠ 35)) hd, if_neg hP']

/-- If something is appended to the address and `/evaluate` is asked for nevertheless, then what was appended already has that
path (and a query or fragment), whatever follows. -/
theorem extra_path {extra : Bytes} (hx : extra ≠ [])
    (h : unescape (urlPath (extra ++ ascii "/evaluate")) = some (ascii "/evaluate")) (r : Bytes) :
    unescape (urlPath (extra ++ r)) = some (ascii "/evaluate") := by
  rw [urlPath_append] at h ⊢
  by_cases hq : ∀ x ∈ extra, x ≠ 63 ∧ x ≠ 35
  · exfalso
    have : urlPath (ascii "/evaluate") = 47 :: ascii "evaluate" := by decide
    rw [if_pos hq, this] at h
    obtain ⟨y, z, hy, hz, he⟩ := unescape_append_slash extra.length extra (ascii "evaluate") _ (Nat.le_refl _) h
    have hu : unescape (ascii "evaluate") = some (ascii "evaluate") := by decide +kernel
    have hz' : ascii "evaluate" = z := Option.some.inj (hu.symm.trans hz)
    have hl := congrArg List.length he
    rw [← hz', List.length_append] at hl
    have : y.length ≠ 0 := fun h => unescape_ne_nil hx hy (List.length_eq_zero_iff.mp h)
    have l1 : (ascii "/evaluate").length = 9 := by decide
    have l2 : (47 :: ascii "evaluate").length = 9 := by decide
    omega
  · rw [if_neg hq] at h ⊢
    exact h

/-- A request that fails, or gets a page other than the evaluation's, gives an error or a panic, never an answer. -/
theorem query_no_answer (ccfg : Config) {kv : KV} {stale : Nat → Nat → UInt8} {path : GoString} {post : Bytes → Transport}
    (hv : ccfg.version ≠ 30309) (hne : path ≠ ascii "/evaluate")
    (hpost : (∀ b, post b = .failed) ∨ ∀ b, post b = deliver s kv stale (cleanPath path) (if cleanPath path = path then b else []))
    (u p : Bytes) (rand : (S : Suite) → ZMod S.q) :
    (∃ e, Query E ccfg post u p rand = .ret NotInBreach none (some e)) ∨ ∃ q, Query E ccfg post u p rand = .panic q := by
  have hconst : ∀ t : Transport, (t = .failed ∨ ∃ st b, st ≠ 200 ∧ t = .reply st b) → (∀ b, post b = t) →
      (∃ e, Query E ccfg post u p rand = .ret NotInBreach none (some e)) ∨
        ∃ q, Query E ccfg post u p rand = .panic q := by
    intro t ht hp
    unfold Query
    cases NewClient E ccfg with
    | panic q => exact .inr ⟨q, rfl⟩
    | err e => exact .inl ⟨e, rfl⟩
    | ok cl =>
      dsimp only
      cases cl.request E u p (rand cl.suite) with
      | panic q => exact .inr ⟨q, rfl⟩
      | err e => exact .inl ⟨e, rfl⟩
      | ok x =>
        obtain ⟨req, ctx⟩ := x
        dsimp only
        rw [hp]
        rcases ht with rfl | ⟨st, b, hst, rfl⟩
        · exact .inl ⟨_, rfl⟩
        · dsimp only
          rw [if_pos hst]
          exact .inl ⟨_, rfl⟩
  rcases hpost with h | h
  · exact hconst .failed (.inl rfl) h
  · by_cases he : cleanPath path = ascii "/evaluate"
    · have hcl : cleanPath path ≠ path := fun h => hne (h.symm.trans he)
      refine hconst (deliver s kv stale (ascii "/evaluate") []) ?_ (fun b => by rw [h, he, if_neg (he ▸ hcl)])
      rcases deliver_evaluate_empty (s := s) kv stale with h | ⟨b, h⟩
      · exact .inl h
      · exact .inr ⟨400, some b, by decide, h⟩
    · have : post = deliver s kv stale (cleanPath path) := by
        funext b
        rw [h]
        cases hr : route (cleanPath path) with
        | redirect t => exact absurd hr (route_of_clean (cleanPath_idem path) t)
        | evaluate => exact absurd ((C59_routes _).1.mp hr) he
        | index => rw [deliver_index kv stale _ hr, deliver_index kv stale _ hr]
        | config => rw [deliver_config kv stale _ hr, deliver_config kv stale _ hr]
      rw [this]
      exact C59_wrong_path ccfg s kv stale _ he hv u p rand

/-- C78: the target of the client program must be the bare address of the server. With anything appended to it (a slash, a
path, a query, a fragment) the program, taking its configuration from the server, prints no answer, and does not exit with
status 0 if its file has a credential. (Version 30309 is excluded as in `C59_wrong_path`.) -/
theorem C78_bare_target (hs : NewServer E cfg = .ok s) (hb : IsGoInt cfg.bucketIDBitSize) (hv : cfg.version ≠ 30309)
    {args : ClientArgs} (hc : args.config = none) (hd : args.dumpConfig = false) {file : Bytes}
    (hf : args.infile = some file) {parts : List (Option (Bytes × Bytes))} (hp : ReadsAs file parts)
    (addr extra : GoString) (hx : extra ≠ []) (kv : KV) (stale stale2 : Nat → Nat → UInt8)
    (rand : Nat → (S : Suite) → ZMod S.q) (chunk : Nat → Nat) :
    let target := ascii "http://" ++ addr ++ extra
    let run := clientMain E args (web addr s kv stale (target ++ ascii "/config") [])
      (fun _ => web addr s kv stale (target ++ ascii "/evaluate")) rand stale2 chunk
    run.stdout = [] ∧ (credentials parts ≠ [] → run.exit ≠ .ok) := by
  intro target run
  have e1 : target ++ ascii "/config" = ascii "http://" ++ addr ++ (extra ++ ascii "/config") := List.append_assoc ..
  have e2 : target ++ ascii "/evaluate" = ascii "http://" ++ addr ++ (extra ++ ascii "/evaluate") := List.append_assoc ..
  cases hcfg : clientConfig args.config (web addr s kv stale (target ++ ascii "/config") []) stale2 with
  | none =>
    have : run = ⟨[], false, .failure⟩ := C64_no_config args _ _ rand stale2 chunk hcfg
    rw [this]
    exact ⟨rfl, fun _ h => by cases h⟩
  | some ccfg =>
    -- the configuration came from the configuration page
    have hget := hcfg
    rw [hc] at hget
    obtain ⟨_, h, _⟩ | ⟨-, body, hreply, hdec⟩ := (C64_source _ _ _ _).mp hget
    · cases h
    rw [e1] at hreply hget
    obtain hw | ⟨path, hpath, hw⟩ := web_at (s := s) addr kv stale (extra ++ ascii "/config")
    · rw [hw] at hreply; cases hreply
    rw [hw] at hreply hget
    rw [ite_self] at hreply hget
    have hcl := cleanPath_idem (if path = [] then [47] else path)
    have hconf : route (cleanPath (if path = [] then [47] else path)) = .config := by
      cases hr : route (cleanPath (if path = [] then [47] else path)) with
      | config => rfl
      | redirect t => exact absurd hr (route_of_clean hcl t)
      | index =>
        rw [deliver_index kv stale _ hr] at hreply
        injection hreply with _ h
        injection h with h
        have := welcome_not_json stale2 Config.zero
        rw [h, hdec] at this
        cases this
      | evaluate =>
        rw [(C59_routes _).1.mp hr] at hreply
        rcases deliver_evaluate_empty (s := s) kv stale with h | ⟨b, h⟩ <;> rw [h] at hreply <;> cases hreply
    rw [deliver_config kv stale _ hconf, clientConfig_from_server hs hb kv stale stale2] at hget
    injection hget with hget
    subst hget
    -- the queries
    have hq : ∀ k u p, (∃ e, Query E cfg.toConfig (web addr s kv stale (target ++ ascii "/evaluate")) u p (rand k) =
        .ret NotInBreach none (some e)) ∨
        ∃ q, Query E cfg.toConfig (web addr s kv stale (target ++ ascii "/evaluate")) u p (rand k) = .panic q := by
      intro k u p
      rw [e2]
      obtain hw2 | ⟨path2, hpath2, hw2⟩ := web_at (s := s) addr kv stale (extra ++ ascii "/evaluate")
      · exact query_no_answer (s := s) (kv := kv) (stale := stale) (path := []) cfg.toConfig hv (by decide) (.inl hw2) u p _
      · refine query_no_answer cfg.toConfig hv ?_ (.inr hw2) u p _
        intro he
        have hp2 : path2 = ascii "/evaluate" := by
          by_cases h0 : path2 = []
          · rw [if_pos h0] at he; exact absurd he (by decide)
          · rwa [if_neg h0] at he
        rw [hp2] at hpath2
        have hp1 : path = ascii "/evaluate" := Option.some.inj (hpath.symm.trans (extra_path hx hpath2 _))
        have hne : ¬ ascii "/evaluate" = [] := by decide
        rw [hp1, if_neg hne] at hconf
        exact absurd hconf (by decide)
    have hrun : run = _ := clientMain_creds hcfg hd hf hp
    rw [hrun]
    dsimp only
    cases hcr : credentials parts with
    | nil => exact ⟨rfl, fun h => absurd rfl h⟩
    | cons x rest =>
      obtain ⟨u, p⟩ := x
      rw [queryCreds]
      rcases hq 0 u p with ⟨e, h⟩ | ⟨q, h⟩ <;> rw [h] <;> exact ⟨rfl, fun _ h => by cases h⟩

/-- C78: with the bare address the requests reach their handlers, for any address. -/
theorem C78_bare_reaches (addr : GoString) (kv : KV) (stale : Nat → Nat → UInt8) (body : Bytes) :
    web addr s kv stale (ascii "http://" ++ addr ++ ascii "/config") body = deliver s kv stale (ascii "/config") body ∧
    web addr s kv stale (ascii "http://" ++ addr ++ ascii "/evaluate") body = deliver s kv stale (ascii "/evaluate") body := by
  unfold web
  rw [isPrefixOf?_append, isPrefixOf?_append]
  have c1 : cleanPath (ascii "/evaluate") = ascii "/evaluate" := by decide
  have c2 : cleanPath (ascii "/config") = ascii "/config" := by decide
  have a1 : ((ascii "/config").any fun c => decide (c < 32 ∨ c = 127)) = false := by decide
  have a2 : ((ascii "/evaluate").any fun c => decide (c < 32 ∨ c = 127)) = false := by decide
  have u1 : unescape (urlPath (ascii "/config")) = some (ascii "/config") := by decide +kernel
  have u2 : unescape (urlPath (ascii "/evaluate")) = some (ascii "/evaluate") := by decide +kernel
  have f1 : unescape (urlFragment (ascii "/config")) = some [] := by decide +kernel
  have f2 : unescape (urlFragment (ascii "/evaluate")) = some [] := by decide +kernel
  have n1 : ¬ ascii "/config" = [] := by decide
  have n2 : ¬ ascii "/evaluate" = [] := by decide
  have h1 : (ascii "/config").head? = some 47 := by decide
  have h2 : (ascii "/evaluate").head? = some 47 := by decide
  dsimp only
  rw [a1, a2, if_neg Bool.false_ne_true, if_neg Bool.false_ne_true, u1, u2, f1, f2, if_pos (.inr (.inl h1)), if_pos (.inr (.inl h2))]
  dsimp only
  rw [if_neg n1, if_neg n2, C78_redirect_once, C78_redirect_once, c1, c2, if_pos rfl, if_pos rfl]
  exact ⟨rfl, rfl⟩

/-- C78: a slash after the address. The configuration is found, but no credential can be checked: the POST is redirected, arrives
as a GET without a body and gets status 400, and the program exits with status 1 at the first credential. -/
theorem C78_trailing_slash (hs : NewServer E cfg = .ok s) (h0 : 0 ≤ cfg.bucketIDBitSize) (h32 : cfg.bucketIDBitSize ≤ 32)
    {args : ClientArgs} (hc : args.config = none) {file : Bytes}
    (hf : args.infile = some file) {parts : List (Option (Bytes × Bytes))} (hp : ReadsAs file parts)
    (addr : GoString) (kv : KV) (stale stale2 : Nat → Nat → UInt8) (rand : Nat → (S : Suite) → ZMod S.q) (chunk : Nat → Nat) :
    let target := ascii "http://" ++ addr ++ ascii "/"
    let run := clientMain E args (web addr s kv stale (target ++ ascii "/config") [])
      (fun _ => web addr s kv stale (target ++ ascii "/evaluate")) rand stale2 chunk
    (args.dumpConfig = true → run = ⟨cfg.toConfig.marshalJSON, false, .ok⟩) ∧
    (args.dumpConfig = false → credentials parts ≠ [] →
      run = ⟨[], decide (cfg.version ≠ 1), .failure⟩) := by
  intro target run
  have hb : IsGoInt cfg.bucketIDBitSize := by constructor <;> omega
  have e1 : target ++ ascii "/config" = ascii "http://" ++ addr ++ (ascii "/" ++ ascii "/config") := List.append_assoc ..
  have e2 : target ++ ascii "/evaluate" = ascii "http://" ++ addr ++ (ascii "/" ++ ascii "/evaluate") := List.append_assoc ..
  have w1 : web addr s kv stale (target ++ ascii "/config") [] = deliver s kv stale (ascii "/config") [] := by
    rw [e1]
    have a1 : ((ascii "/" ++ ascii "/config").any fun c => decide (c < 32 ∨ c = 127)) = false := by decide
    have u1 : unescape (urlPath (ascii "/" ++ ascii "/config")) = some (ascii "//config") := by decide +kernel
    have f1 : unescape (urlFragment (ascii "/" ++ ascii "/config")) = some [] := by decide +kernel
    have n1 : ¬ ascii "//config" = [] := by decide
    have h1 : (ascii "/" ++ ascii "/config").head? = some 47 := by decide
    have c1 : cleanPath (ascii "//config") = ascii "/config" := by decide
    unfold web
    rw [isPrefixOf?_append]
    dsimp only
    rw [a1, if_neg Bool.false_ne_true, u1, f1, if_pos (.inr (.inl h1))]
    dsimp only
    rw [if_neg n1, C78_redirect_once, c1, ite_self]
  have w2 : ∀ body, web addr s kv stale (target ++ ascii "/evaluate") body = deliver s kv stale (ascii "/evaluate") [] := by
    intro body
    rw [e2]
    have a1 : ((ascii "/" ++ ascii "/evaluate").any fun c => decide (c < 32 ∨ c = 127)) = false := by decide
    have u1 : unescape (urlPath (ascii "/" ++ ascii "/evaluate")) = some (ascii "//evaluate") := by decide +kernel
    have f1 : unescape (urlFragment (ascii "/" ++ ascii "/evaluate")) = some [] := by decide +kernel
    have n1 : ¬ ascii "//evaluate" = [] := by decide
    have n2 : ¬ ascii "/evaluate" = ascii "//evaluate" := by decide
    have h1 : (ascii "/" ++ ascii "/evaluate").head? = some 47 := by decide
    have c1 : cleanPath (ascii "//evaluate") = ascii "/evaluate" := by decide
    unfold web
    rw [isPrefixOf?_append]
    dsimp only
    rw [a1, if_neg Bool.false_ne_true, u1, f1, if_pos (.inr (.inl h1))]
    dsimp only
    rw [if_neg n1, C78_redirect_once, c1, if_neg n2]
  have hcfg : clientConfig args.config (web addr s kv stale (target ++ ascii "/config") []) stale2 = some cfg.toConfig := by
    rw [hc, w1]; exact clientConfig_from_server hs hb kv stale stale2
  refine ⟨fun hd => (C64_dump_and_warning args _ _ rand stale2 chunk _ hcfg).1 hd, fun hd hne => ?_⟩
  have hrun : run = _ := clientMain_creds hcfg hd hf hp
  rw [hrun]
  cases hcr : credentials parts with
  | nil => exact absurd hcr hne
  | cons x rest =>
    obtain ⟨u, p⟩ := x
    obtain ⟨c, hcl⟩ := newClient_of_newServer hs
    have hl := readsAs_lengths hp (u := u) (p := p) (by rw [hcr]; simp)
    have hq : ∃ e, Query E cfg.toConfig (web addr s kv stale (target ++ ascii "/evaluate")) u p (rand 0) =
        .ret NotInBreach none (some e) := by
      unfold Query
      rw [hcl]
      dsimp only
      obtain ⟨_, -, -, hx⟩ := request_ok cfg.toConfig c hcl u p (by omega) (by omega) h0 h32 (rand 0 c.suite)
      rw [hx]
      dsimp only
      rw [w2]
      rcases deliver_evaluate_empty (s := s) kv stale with h | ⟨b, h⟩ <;> rw [h]
      · exact ⟨_, rfl⟩
      · dsimp only
        rw [if_pos (by decide)]
        exact ⟨_, rfl⟩
    obtain ⟨e, hq⟩ := hq
    dsimp only
    rw [queryCreds, hq]
    rfl

theorem flagParse_nil {F : Type} (formal : GoString → Option (FlagVar F)) (d : F) : flagParse formal d [] = .parsed d [] := by
  rw [flagParse]

theorem serverProgram_nil (files : Files) (key : PrivateKey) (stale : Nat → Nat → UInt8) (chunk : Nat → Nat) :
    serverProgram E [] files key stale chunk =
      .ran (serverMain E ⟨none, false, [], 9, true, some files.stdin⟩ key stale chunk) (ascii "localhost:8080") := by
  have h1 : ServerFlags.defaults.args files = ⟨none, false, [], 9, true, some files.stdin⟩ := by
    unfold ServerFlags.args
    rw [if_neg (by decide), if_neg (by decide)]
    rfl
  unfold serverProgram
  rw [flagParse_nil]
  dsimp only
  rw [h1]
  rfl

theorem clientProgram_nil (files : Files) (get : GoString → Transport) (post : Nat → GoString → Bytes → Transport)
    (rand : Nat → (S : Suite) → ZMod S.q) (stale : Nat → Nat → UInt8) (chunk : Nat → Nat) :
    clientProgram E [] files get post rand stale chunk =
      .ran (clientMain E ⟨none, false, false, some files.stdin⟩ (get (ascii "http://localhost:8080" ++ ascii "/config"))
        (fun k => post k (ascii "http://localhost:8080" ++ ascii "/evaluate")) rand stale chunk) := by
  have h1 : ClientFlags.defaults.args files = ⟨none, false, false, some files.stdin⟩ := by
    unfold ClientFlags.args
    rw [if_neg (by decide), if_neg (by decide)]
    rfl
  have h2 : ClientFlags.defaults.target = ascii "http://localhost:8080" := rfl
  unfold clientProgram
  rw [flagParse_nil]
  dsimp only
  rw [h1, h2]

/-- C78: the quick start, in general. The server program is started without arguments on any file of credentials, the client
program without arguments on any other. Then the server loads everything and listens where the client asks, and the client prints for
every credential, in order, what the ideal lookup gives among the credentials, nine variants of each and the usernames. The
conditions are those of `C60_end_to_end`. -/
theorem C78_quick_start {key : PrivateKey} {stale stale1 stale2 : Nat → Nat → UInt8} {chunk chunk' : Nat → Nat}
    (hs : NewServer E (DefaultServerConfig key) = .ok s) (ht : Spec.tweak s.suite s.privateKey ≠ 0)
    {files files' : Files} {parts parts' : List (Option (Bytes × Bytes))} (hp : ReadsAs files.stdin parts)
    (hp' : ReadsAs files'.stdin parts') (hlen : ∀ x ∈ credentials parts, x.2.length ≤ 49152)
    {rand : Nat → (S : Suite) → ZMod S.q} (hr : ∀ i, rand i s.suite ≠ 0)
    (he : ∀ x ∈ credentials parts', s.suite.hashToElement (Spec.oprfInput E 1 x.1 x.2) ≠ 0) :
    ∃ (variants : Bytes → List Bytes) (kv : KV) (listen : GoString), (∀ p, mutate dasRules p 9 = .ok (variants p)) ∧
      serverProgram E [] files key stale chunk =
        .ran (.serving s kv (credentials parts).length (parts.length - (credentials parts).length)) listen ∧
      let db := storedAll [] 9 true variants (credentials parts)
      ((∀ x ∈ credentials parts', ∀ y ∈ db, ¬ TagCollision E s y x.1 x.2) →
        clientProgram E [] files' (fun url => web listen s kv stale1 url []) (fun _ => web listen s kv stale1) rand stale2
          chunk' = .ran ⟨(credentials parts').flatMap (fun x => idealLine false db x.1 x.2), false, .ok⟩) := by
  have h33 : s.suite.elemLen = 33 := by
    obtain ⟨S, hS, hl⟩ := E.default_suite
    have := (newServer_ok hs)
    obtain ⟨slow, S', -, -, -, h2, -, rfl⟩ := this
    exact (Option.some.inj (h2.symm.trans hS)) ▸ hl
  obtain ⟨variants, kv, hv, h1, h2⟩ := C60_end_to_end (E := E) (cfg := DefaultServerConfig key) (s := s)
    (args := ⟨none, false, [], 9, true, some files.stdin⟩) (key := key) (stale := stale) (chunk := chunk)
    (stale1 := stale1) (stale2 := stale2) (chunk' := chunk') (rand := rand) (cargs := ⟨none, false, false, some files'.stdin⟩)
    rfl hs rfl rfl (show (0 : Int) ≤ 20 by decide) (show (20 : Int) ≤ 32 by decide) ht (Nat.zero_le _)
    (show (0 : Int) ≤ 9 by decide) (show (9 : Int) ≤ maxSliceCap by decide) hp hlen h33 rfl rfl rfl hp' hr he
  refine ⟨variants, kv, ascii "localhost:8080", hv, ?_, ?_⟩
  · rw [serverProgram_nil, h1]
  · intro db hno
    have h3 := h2 hno
    have w := fun b => C78_bare_reaches (s := s) (ascii "localhost:8080") kv stale1 b
    have ht : ascii "http://localhost:8080" = ascii "http://" ++ ascii "localhost:8080" := by decide
    have hg : web (ascii "localhost:8080") s kv stale1 (ascii "http://localhost:8080" ++ ascii "/config") [] =
        deliver s kv stale1 (ascii "/config") [] := by rw [ht]; exact (w []).1
    have hpo : web (ascii "localhost:8080") s kv stale1 (ascii "http://localhost:8080" ++ ascii "/evaluate") =
        deliver s kv stale1 (ascii "/evaluate") := by rw [ht]; funext b; exact (w b).2
    rw [clientProgram_nil, hg, hpo, h3]
    rfl

/-- Addresses and what is appended to them: a path, dots, an escaped slash, a query. -/
example : cleanPath (ascii "/migp/evaluate") = ascii "/migp/evaluate" ∧ cleanPath (ascii "/./evaluate") = ascii "/evaluate" ∧
    unescape (urlPath (ascii "/%2e%2F/evaluate?x=%zz")) = some (ascii "/.//evaluate") ∧
    unescape (urlFragment (ascii "/#%zz")) = none := by decide +kernel

/-- The hypotheses of `C78_bare_target` and `C78_trailing_slash` are met by a file with a credential. -/
example : ReadsAs (ascii "\nuser:password") [none, some (ascii "user", ascii "password")] ∧
    NewServer Example.ext Example.cfg = .ok Example.server ∧ Example.cfg.version ≠ 30309 :=
  ⟨example_reads.2, Example.newServer_eq, by decide⟩

/-- The one way around `C78_bare_target` when the configuration comes from a file: a target that already has the path `/evaluate` and a
query. -/
example (kv : KV) (stale : Nat → Nat → UInt8) (body : Bytes) :
    web (ascii "h") s kv stale (ascii "http://" ++ ascii "h" ++ ascii "/evaluate?/evaluate") body =
      deliver s kv stale (ascii "/evaluate") body := by
  have c1 : cleanPath (ascii "/evaluate") = ascii "/evaluate" := by decide
  have a1 : ((ascii "/evaluate?/evaluate").any fun c => decide (c < 32 ∨ c = 127)) = false := by decide
  have u1 : unescape (urlPath (ascii "/evaluate?/evaluate")) = some (ascii "/evaluate") := by decide +kernel
  have f1 : unescape (urlFragment (ascii "/evaluate?/evaluate")) = some [] := by decide +kernel
  have n1 : ¬ ascii "/evaluate" = [] := by decide
  have h1 : (ascii "/evaluate?/evaluate").head? = some 47 := by decide
  unfold web
  rw [isPrefixOf?_append]
  dsimp only
  rw [a1, if_neg Bool.false_ne_true, u1, f1, if_pos (.inr (.inl h1))]
  dsimp only
  rw [if_neg n1, C78_redirect_once, c1, if_pos rfl]

end Migp.Props
