import Verif.Model.Stream
import Verif.Lemmas.Reader
import Verif.Props.Restart
/-!
# C87: input that comes in pieces

For every reader: a file, a pipe, a terminal, a disk that fails; every number of steps; every answer of the network.
-/
namespace Migp.Props
open Spec Bufio Http Mutator

variable {E : Ext} {σ : Type} {r : Reader σ}

/-- What a client was given and what it has printed. -/
def given : List ClientEvent → Bytes
  | [] => []
  | .read (some b) :: t => b ++ given t
  | _ :: t => given t
def printed : List ClientEvent → Bytes
  | [] => []
  | .print out :: t => out ++ printed t
  | _ :: t => printed t

/-- The loop of the client up to a moment at which it reads. -/
theorem client_read (show_ : Bool) (query : Nat → Bytes → Bytes → Out) (t : List InEvent) (k : Nat) (a : List ClientEvent)
    (got : Option Bytes) (b : List ClientEvent) (h : clientEvents show_ query k t = a ++ .read got :: b) :
    ∃ a' b', t = a' ++ .read got :: b' ∧ bytesRead a' = given a ∧ queryLines show_ query k (linesOut a') = (printed a, .ok) := by
  induction t generalizing k a with
  | nil => simp [clientEvents] at h
  | cons e t ih =>
    cases e with
    | read got' =>
      rw [clientEvents] at h
      cases a with
      | nil =>
        injection h with h1 h2
        cases h1
        exact ⟨[], t, rfl, rfl, rfl⟩
      | cons x a =>
        injection h with h1 h2
        subst h1
        obtain ⟨a', b', g1, g2, g3⟩ := ih k a h2
        refine ⟨.read got' :: a', b', by rw [g1]; rfl, ?_, g3⟩
        cases got' with
        | none => exact g2
        | some x => rw [bytesRead, given, g2]
    | line l =>
      obtain ⟨o, ho⟩ := isPart_exists l
      rcases o with _ | ⟨u, p⟩
      · rw [clientEvents, isPart_none_iff.mp ho] at h
        obtain ⟨a', b', g1, g2, g3⟩ := ih k a h
        refine ⟨.line l :: a', b', by rw [g1]; rfl, g2, ?_⟩
        rw [linesOut, queryLines, isPart_none_iff.mp ho]
        exact g3
      · rw [clientEvents, isPart_some_iff.mp ho] at h
        dsimp only at h
        cases hq : query k u p with
        | panic q =>
          rw [hq] at h
          cases a with
          | nil => injection h with h1 _; cases h1
          | cons x a => injection h with h1 h2; simp at h2
        | ret st md err =>
          rw [hq] at h
          cases err with
          | some e =>
            cases a with
            | nil => injection h with h1 _; cases h1
            | cons x a => injection h with h1 h2; simp at h2
          | none =>
            dsimp only at h
            cases a with
            | nil => injection h with h1 _; cases h1
            | cons x a =>
              injection h with h1 h2
              subst h1
              obtain ⟨a', b', g1, g2, g3⟩ := ih (k + 1) a h2
              refine ⟨.line l :: a', b', by rw [g1]; rfl, g2, ?_⟩
              rw [linesOut, queryLines, isPart_some_iff.mp ho]
              dsimp only
              rw [hq]
              dsimp only
              rw [g3]
              rfl
    | stop =>
      rw [clientEvents] at h
      cases a with
      | nil => injection h with h1 _; cases h1
      | cons x a => injection h with h1 h2; simp at h2

/-- The loop of the client at its end. -/
theorem client_exit (show_ : Bool) (query : Nat → Bytes → Bytes → Out) (t : List InEvent) (k : Nat) (e : Exit)
    (h : .exit e ∈ clientEvents show_ query k t) :
    (∃ a b, t = a ++ .stop :: b ∧ bytesRead a = given (clientEvents show_ query k t) ∧
      queryLines show_ query k (linesOut a) = (printed (clientEvents show_ query k t), e)) ∨
    (∃ a l b, t = a ++ .line l :: b ∧ bytesRead a = given (clientEvents show_ query k t) ∧
      ∀ more, queryLines show_ query k (linesOut a ++ l :: more) = (printed (clientEvents show_ query k t), e)) := by
  induction t generalizing k with
  | nil => simp [clientEvents] at h
  | cons x t ih =>
    cases x with
    | read got' =>
      rw [clientEvents] at h ⊢
      have hm : .exit e ∈ clientEvents show_ query k t := by simpa using h
      have hg : ∀ a, bytesRead a = given (clientEvents show_ query k t) →
          bytesRead (.read got' :: a) = given (.read got' :: clientEvents show_ query k t) := by
        intro a ha
        cases got' with
        | none => exact ha
        | some x => rw [bytesRead, given, ha]
      rcases ih k hm with ⟨a, b, g1, g2, g3⟩ | ⟨a, l, b, g1, g2, g3⟩
      · exact .inl ⟨.read got' :: a, b, by rw [g1]; rfl, hg a g2, g3⟩
      · exact .inr ⟨.read got' :: a, l, b, by rw [g1]; rfl, hg a g2, g3⟩
    | line l =>
      obtain ⟨o, ho⟩ := isPart_exists l
      rcases o with _ | ⟨u, p⟩
      · rw [clientEvents, isPart_none_iff.mp ho] at h ⊢
        dsimp only at h ⊢
        have hl : ∀ ls, queryLines show_ query k (l :: ls) = queryLines show_ query k ls := by
          intro ls
          rw [queryLines, isPart_none_iff.mp ho]
        rcases ih k h with ⟨a, b, g1, g2, g3⟩ | ⟨a, l', b, g1, g2, g3⟩
        · exact .inl ⟨.line l :: a, b, by rw [g1]; rfl, g2, by rw [linesOut, hl]; exact g3⟩
        · exact .inr ⟨.line l :: a, l', b, by rw [g1]; rfl, g2, fun more => by
            rw [linesOut, List.cons_append, hl]; exact g3 more⟩
      · rw [clientEvents, isPart_some_iff.mp ho] at h ⊢
        dsimp only at h ⊢
        cases hq : query k u p with
        | panic q =>
          rw [hq] at h
          cases List.mem_singleton.mp h
          refine .inr ⟨[], l, t, rfl, rfl, fun more => ?_⟩
          rw [linesOut, List.nil_append, queryLines, isPart_some_iff.mp ho]
          dsimp only
          rw [hq]
          rfl
        | ret st md err =>
          rw [hq] at h
          cases err with
          | some err =>
            cases List.mem_singleton.mp h
            refine .inr ⟨[], l, t, rfl, rfl, fun more => ?_⟩
            rw [linesOut, List.nil_append, queryLines, isPart_some_iff.mp ho]
            dsimp only
            rw [hq]
            rfl
          | none =>
            dsimp only at h ⊢
            have hl : ∀ ls, queryLines show_ query k (l :: ls) =
                (clientObject show_ u p st md ++ [10] ++ (queryLines show_ query (k + 1) ls).1,
                  (queryLines show_ query (k + 1) ls).2) := by
              intro ls
              rw [queryLines, isPart_some_iff.mp ho]
              dsimp only
              rw [hq]
            have hm : .exit e ∈ clientEvents show_ query (k + 1) t := by simpa using h
            rcases ih (k + 1) hm with ⟨a, b, g1, g2, g3⟩ | ⟨a, l', b, g1, g2, g3⟩
            · exact .inl ⟨.line l :: a, b, by rw [g1]; rfl, g2, by rw [linesOut, hl, g3]; rfl⟩
            · exact .inr ⟨.line l :: a, l', b, by rw [g1]; rfl, g2, fun more => by
                rw [linesOut, List.cons_append, hl, g3 more]; rfl⟩
    | stop =>
      rw [clientEvents] at h ⊢
      cases List.mem_singleton.mp h
      exact .inl ⟨[], t, rfl, rfl, rfl⟩

/-- Nothing comes after the end. -/
theorem run_after_stop {n : Nat} {s : Input σ} {a b : List InEvent} (h : s.run r n = a ++ .stop :: b) : b = [] := by
  induction n generalizing s a with
  | zero => simp [Input.run] at h
  | succ n ih =>
    rw [Input.run] at h
    cases hs : s.step r with
    | read got s' =>
      rw [hs] at h
      cases a with
      | nil => injection h with h1 _; cases h1
      | cons x a => injection h with _ h2; exact ih h2
    | line l s' =>
      rw [hs] at h
      cases a with
      | nil => injection h with h1 _; cases h1
      | cons x a => injection h with _ h2; exact ih h2
    | stop =>
      rw [hs] at h
      cases a with
      | nil => injection h with _ h2; exact h2.symm
      | cons x a => injection h with h1 h2; simp at h2

/-- C87: whenever the client program reads, that is before it waits for more input, it has asked about every credential among the lines
it was given to their ends, in order, and printed every answer. So on a pipe or a terminal each line is answered before the
next one has to be there; nothing is held back until the input ends. For every reader, every moment, and every network. -/
theorem C87_prompt (show_ : Bool) (query : Nat → Bytes → Bytes → Out) (state : σ) (n : Nat) (a : List ClientEvent)
    (got : Option Bytes) (b : List ClientEvent)
    (h : clientEvents show_ query 0 ((Input.new state).run r n) = a ++ .read got :: b) :
    ∃ lines rest chomped parts answers, WholeLinesOf (given a) lines rest ∧ List.Forall₂ IsChomped lines chomped ∧
      List.Forall₂ IsPart chomped parts ∧ answers.length = (credentials parts).length ∧
      (∀ i u p, (credentials parts)[i]? = some (u, p) →
        ∃ st md, answers[i]? = some (st, md) ∧ query i u p = .ret st md none) ∧
      printed a = ((credentials parts).zip answers).flatMap (fun x => clientObject show_ x.1.1 x.1.2 x.2.1 x.2.2 ++ [10]) := by
  obtain ⟨a', b', h1, h2, h3⟩ := client_read show_ query _ 0 a got b h
  obtain ⟨ls, rest, g1, g2, -⟩ := run_prompt n (Good.new state) a' got b' h1
  rw [List.nil_append] at g1 g2
  rw [h2] at g1
  have hch : List.Forall₂ IsChomped ls (ls.map dropCR) := by
    clear g1 g2
    induction ls with
    | nil => exact .nil
    | cons l ls ih => exact .cons (dropCR_chomped l) ih
  obtain ⟨parts, hparts⟩ := forall₂_exists isPart_exists (ls.map dropCR)
  obtain ⟨answers, k1, k2, k3, k4⟩ := queryLines_spec show_ query _ _ hparts 0
  rw [← g2, h3] at k3 k4
  dsimp only at k3 k4
  have hlen : answers.length = (credentials parts).length := by
    by_contra hne
    have hlt : answers.length < (credentials parts).length := by omega
    rw [List.getElem?_eq_getElem hlt] at k4
    obtain ⟨u, p⟩ := (credentials parts)[answers.length]
    dsimp only at k4
    rcases k4 with ⟨_, _, _, _, h⟩ | ⟨_, _, h⟩ <;> cases h
  refine ⟨ls, rest, _, parts, answers, g1, hch, hparts, hlen, ?_, k3⟩
  intro i u p hi
  have hi' : i < answers.length := by
    rw [hlen]
    exact (List.getElem?_eq_some_iff.mp hi).1
  obtain ⟨st, md, e1, e2⟩ := k2 i u p hi' hi
  rw [Nat.zero_add] at e2
  exact ⟨st, md, e1, e2⟩

/-- C87: when the client program ends, it has printed, and its exit status is, what C57 says of a file with just the bytes that it was
given: a read error is like the end of the file, and how the input came in pieces makes no difference. -/
theorem C87_client {args : ClientArgs} {get : Transport} {post : Nat → Bytes → Transport}
    {rand : Nat → (S : Suite) → ZMod S.q} {stale : Nat → Nat → UInt8} {ccfg : Config}
    (hcfg : clientConfig args.config get stale = some ccfg) (hd : args.dumpConfig = false) (state : σ) (n : Nat) (e : Exit)
    {t : List ClientEvent}
    (ht : clientEvents args.showPassword (fun k u p => Query E ccfg (post k) u p (rand k)) 0 ((Input.new state).run r n) = t)
    (he : .exit e ∈ t) (chunk : Nat → Nat) :
    clientMain E { args with infile := some (given t) } get post rand stale chunk =
      ⟨printed t, decide (ccfg.version ≠ 1), e⟩ := by
  have hm : clientMain E { args with infile := some (given t) } get post rand stale chunk =
      ⟨(queryLines args.showPassword (fun k u p => Query E ccfg (post k) u p (rand k)) 0
          (scannedLines chunk (given t))).1, decide (ccfg.version ≠ DefaultMIGPVersion),
        (queryLines args.showPassword (fun k u p => Query E ccfg (post k) u p (rand k)) 0
          (scannedLines chunk (given t))).2⟩ := by
    unfold clientMain
    dsimp only
    rw [hcfg]
    dsimp only
    rw [hd, if_neg (by simp)]
  rw [hm]
  suffices h : queryLines args.showPassword (fun k u p => Query E ccfg (post k) u p (rand k)) 0
      (scannedLines chunk (given t)) = (printed t, e) by
    rw [h]; rfl
  rw [← ht] at he
  rcases client_exit _ _ _ _ e he with ⟨a, b, g1, g2, g3⟩ | ⟨a, l, b, g1, g2, g3⟩
  · rw [ht] at g2 g3
    have hb := run_after_stop g1
    subst hb
    obtain ⟨ls, k1, k2⟩ := run_stop n (Good.new state) (r := r) (by rw [g1]; simp)
    rw [List.nil_append, g1] at k1 k2
    have e1 : bytesRead (a ++ [.stop]) = bytesRead a := by rw [bytesRead_append]; simp [bytesRead]
    have e2 : linesOut (a ++ [.stop]) = linesOut a := by rw [linesOut_append]; simp [linesOut]
    rw [e1, g2] at k1
    rw [scannedLines_eq chunk _ ls k1, ← k2, e2]
    exact g3
  · rw [ht] at g2 g3
    obtain ⟨s', hs'⟩ := run_split n (Good.new state) a b (.line l) g1 (by simp)
    obtain ⟨ls, hls⟩ := IsLines.exists (bytesRead ([] ++ a ++ [.line l]))
    obtain ⟨more, hmore⟩ := hs'.prefix hls
    have e1 : bytesRead ([] ++ a ++ [.line l]) = bytesRead a := by
      rw [List.nil_append, bytesRead_append]; simp [bytesRead]
    have e2 : linesOut ([] ++ a ++ [.line l]) = linesOut a ++ [l] := by
      rw [List.nil_append, linesOut_append]; simp [linesOut]
    rw [e1, g2] at hls
    rw [scannedLines_eq chunk _ ls hls, hmore, e2, List.append_assoc]
    exact g3 more

/-! ## The server -/

/-- What a server was given. -/
def taken : List ImportEvent → Bytes
  | [] => []
  | .read (some b) :: t => b ++ taken t
  | _ :: t => taken t

/-- The loop of the server at its end. -/
theorem import_end (s : Server) (md : Bytes) (m : Int) (uv : Bool) (t : List InEvent) (kv : KV) (x y : Nat) (e : ImportEvent)
    (h : e ∈ importEvents E s md m uv kv x y t) :
    (∃ got, e = .read got ∧ .read got ∈ t) ∨
    (∃ kv' x' y' a b, e = .listen kv' x' y' ∧ t = a ++ .stop :: b ∧ bytesRead a = taken (importEvents E s md m uv kv x y t) ∧
      loadLines E s md m uv (linesOut a) kv x y = .done kv' x' y' ∧
      ∀ got, .read got ∈ t → .read got ∈ a ∨ .read got ∈ b) ∨
    (∃ q a l b, e = .crash q ∧ t = a ++ .line l :: b ∧ bytesRead a = taken (importEvents E s md m uv kv x y t) ∧
      ∀ more, loadLines E s md m uv (linesOut a ++ l :: more) kv x y = .crashed q) := by
  induction t generalizing kv x y with
  | nil => simp [importEvents] at h
  | cons z t ih =>
    cases z with
    | read got' =>
      rw [importEvents] at h ⊢
      rcases List.mem_cons.mp h with rfl | hm
      · exact .inl ⟨got', rfl, List.mem_cons_self⟩
      have hg : ∀ a, bytesRead a = taken (importEvents E s md m uv kv x y t) →
          bytesRead (.read got' :: a) = taken (.read got' :: importEvents E s md m uv kv x y t) := by
        intro a ha
        cases got' with
        | none => exact ha
        | some x => rw [bytesRead, taken, ha]
      rcases ih kv x y hm with ⟨got, rfl, h1⟩ | ⟨kv', x', y', a, b, rfl, g1, g2, g3, g4⟩ | ⟨q, a, l, b, rfl, g1, g2, g3⟩
      · exact .inl ⟨got, rfl, List.mem_cons_of_mem _ h1⟩
      · refine .inr (.inl ⟨kv', x', y', .read got' :: a, b, rfl, by rw [g1]; rfl, hg a g2, g3, fun got hgot => ?_⟩)
        rcases List.mem_cons.mp hgot with h | h
        · exact .inl (by rw [h]; exact List.mem_cons_self)
        · exact (g4 got h).imp (List.mem_cons_of_mem _) id
      · exact .inr (.inr ⟨q, .read got' :: a, l, b, rfl, by rw [g1]; rfl, hg a g2, g3⟩)
    | line l =>
      have lift : ∀ kv1 x1 y1,
          (∀ more, loadLines E s md m uv (l :: more) kv x y = loadLines E s md m uv more kv1 x1 y1) →
          importEvents E s md m uv kv x y (.line l :: t) = importEvents E s md m uv kv1 x1 y1 t →
          (∃ got, e = .read got ∧ .read got ∈ .line l :: t) ∨
          (∃ kv' x' y' a b, e = .listen kv' x' y' ∧ .line l :: t = a ++ .stop :: b ∧
            bytesRead a = taken (importEvents E s md m uv kv x y (.line l :: t)) ∧
            loadLines E s md m uv (linesOut a) kv x y = .done kv' x' y' ∧
            ∀ got, .read got ∈ .line l :: t → .read got ∈ a ∨ .read got ∈ b) ∨
          (∃ q a l' b, e = .crash q ∧ .line l :: t = a ++ .line l' :: b ∧
            bytesRead a = taken (importEvents E s md m uv kv x y (.line l :: t)) ∧
            ∀ more, loadLines E s md m uv (linesOut a ++ l' :: more) kv x y = .crashed q) := by
        intro kv1 x1 y1 hl he
        rw [he] at h ⊢
        rcases ih kv1 x1 y1 h with ⟨got, rfl, h1⟩ | ⟨kv', x', y', a, b, rfl, g1, g2, g3, g4⟩ | ⟨q, a, l', b, rfl, g1, g2, g3⟩
        · exact .inl ⟨got, rfl, List.mem_cons_of_mem _ h1⟩
        · refine .inr (.inl ⟨kv', x', y', .line l :: a, b, rfl, by rw [g1]; rfl, g2, by rw [linesOut, hl]; exact g3,
            fun got hgot => ?_⟩)
          rcases List.mem_cons.mp hgot with h | h
          · cases h
          · exact (g4 got h).imp (List.mem_cons_of_mem _) id
        · exact .inr (.inr ⟨q, .line l :: a, l', b, rfl, by rw [g1]; rfl, g2, fun more => by
            rw [linesOut, List.cons_append, hl]; exact g3 more⟩)
      obtain ⟨o, ho⟩ := isPart_exists l
      rcases o with _ | ⟨u, p⟩
      · refine lift kv x (y + 1) (fun more => loadLines_cons_none ho md m uv more kv x y) ?_
        rw [importEvents, isPart_none_iff.mp ho]
      · have hev : importEvents E s md m uv kv x y (.line l :: t) =
            match insertRecord E s ⟨u, p, md, m, uv⟩ kv with
            | (_, .panic q) => [.crash q]
            | (kv, .err _) => importEvents E s md m uv kv x (y + 1) t
            | (kv, .ok ()) => importEvents E s md m uv kv (x + 1) y t := by
          rw [importEvents, isPart_some_iff.mp ho]
          rfl
        have hld := fun more => loadLines_cons_some (E := E) (s := s) ho md m uv more kv x y
        rcases hi : insertRecord E s ⟨u, p, md, m, uv⟩ kv with ⟨kv1, w | er | q⟩
        · rw [hi] at hev
          exact lift kv1 (x + 1) y (fun more => by rw [hld more, hi]) hev
        · rw [hi] at hev
          exact lift kv1 x (y + 1) (fun more => by rw [hld more, hi]) hev
        · rw [hi] at hev
          rw [hev] at h ⊢
          rw [List.mem_singleton.mp h]
          exact .inr (.inr ⟨q, [], l, t, rfl, rfl, rfl, fun more => by
            rw [linesOut, List.nil_append, hld more, hi]⟩)
    | stop =>
      rw [importEvents] at h ⊢
      rw [List.mem_singleton.mp h]
      exact .inr (.inl ⟨kv, x, y, [], t, rfl, rfl, rfl, rfl, fun got hgot => by
        rcases List.mem_cons.mp hgot with h | h
        · cases h
        · exact .inr h⟩)

theorem taken_all (s : Server) (md : Bytes) (m : Int) (uv : Bool) (t : List InEvent) (kv : KV) (x y : Nat) {kv' : KV} {x' y' : Nat}
    (h : .listen kv' x' y' ∈ importEvents E s md m uv kv x y t) (hs : ∀ a b, t = a ++ .stop :: b → b = []) :
    ∀ got, .read got ∈ t → .read got ∈ importEvents E s md m uv kv x y t := by
  induction t generalizing kv x y with
  | nil => simp [importEvents] at h
  | cons z t ih =>
    have hs' : ∀ a b, t = a ++ .stop :: b → b = [] := fun a b e => hs (z :: a) b (by rw [e]; rfl)
    intro got hgot
    cases z with
    | read got' =>
      rw [importEvents] at h ⊢
      have hm : .listen kv' x' y' ∈ importEvents E s md m uv kv x y t := by simpa using h
      rcases List.mem_cons.mp hgot with e | e
      · cases e; exact List.mem_cons_self
      · exact List.mem_cons_of_mem _ (ih kv x y hm hs' got e)
    | line l =>
      have e : .read got ∈ t := by simpa using hgot
      obtain ⟨o, ho⟩ := isPart_exists l
      rcases o with _ | ⟨u, p⟩
      · rw [importEvents, isPart_none_iff.mp ho] at h ⊢
        exact ih kv x (y + 1) h hs' got e
      · have hev : importEvents E s md m uv kv x y (.line l :: t) =
            match insertRecord E s ⟨u, p, md, m, uv⟩ kv with
            | (_, .panic q) => [.crash q]
            | (kv, .err _) => importEvents E s md m uv kv x (y + 1) t
            | (kv, .ok ()) => importEvents E s md m uv kv (x + 1) y t := by
          rw [importEvents, isPart_some_iff.mp ho]
          rfl
        rw [hev] at h ⊢
        rcases hi : insertRecord E s ⟨u, p, md, m, uv⟩ kv with ⟨kv1, w | er | q⟩
        · rw [hi] at h
          exact ih kv1 (x + 1) y h hs' got e
        · rw [hi] at h
          exact ih kv1 x (y + 1) h hs' got e
        · rw [hi] at h
          simp at h
    | stop =>
      have := hs [] t rfl
      subst this
      simp at hgot

/-- C87: the server program, for every reader and every number of steps. If it has come to listening, then a call of `Read` has failed
before (the end of the input, or an error), or it was given 65536 bytes or more without a newline: as long as the input is
open it keeps on reading, and nobody is served. The store and the counters are then those that it comes to on a file
with just the bytes that it was given. And if it panics, so it does on such a file. -/
theorem C87_server {args : ServerArgs} {key : PrivateKey} {stale : Nat → Nat → UInt8} {cfg : ServerConfig} {s : Server}
    (hcfg : serverConfig E args.config key stale = some cfg) (hs : NewServer E cfg = .ok s) (hd : args.dumpConfig = false)
    (state : σ) (n : Nat) {t : List ImportEvent}
    (ht : importEvents E s args.metadata args.numVariants args.usernameVariant newKVStore 0 0 ((Input.new state).run r n) = t)
    (chunk : Nat → Nat) :
    (∀ kv x y, .listen kv x y ∈ t →
      serverMain E { args with infile := some (taken t) } key stale chunk = .serving s kv x y ∧
      (.read none ∈ t ∨ ∃ lines rest, WholeLinesOf (taken t) lines rest ∧ 65536 ≤ rest.length)) ∧
    ∀ q, .crash q ∈ t → serverMain E { args with infile := some (taken t) } key stale chunk = .crashed q := by
  constructor
  · intro kv x y hm
    rw [← ht] at hm
    have hafter : ∀ a b, (Input.new state).run r n = a ++ .stop :: b → b = [] := fun a b e => run_after_stop e
    have hall := taken_all s _ _ _ _ _ _ _ hm hafter
    rcases import_end s _ _ _ _ _ _ _ _ hm with ⟨_, h, -⟩ | ⟨kv', x', y', a, b, h, g1, g2, g3, -⟩ | ⟨_, _, _, _, h, -⟩
    · cases h
    · cases h
      rw [ht] at g2
      have hb := hafter a b g1
      subst hb
      have e1 : bytesRead (a ++ [.stop]) = bytesRead a := by rw [bytesRead_append]; simp [bytesRead]
      have e2 : linesOut (a ++ [.stop]) = linesOut a := by rw [linesOut_append]; simp [linesOut]
      have hstop : .stop ∈ (Input.new state).run r n := by rw [g1]; simp
      constructor
      · obtain ⟨ls, k1, k2⟩ := run_stop n (Good.new state) (r := r) hstop
        rw [List.nil_append, g1] at k1 k2
        rw [e1, g2] at k1
        rw [serverMain_eq (args := { args with infile := some (taken t) }) hcfg hs hd rfl,
          scannedLines_eq chunk _ ls k1, ← k2, e2, g3]
      · rcases run_why n (Good.new state) (r := r) hstop with h | h
        · rw [List.nil_append] at h
          rw [← ht]
          exact .inl (hall none h)
        · right
          rw [List.nil_append, g1, e1, g2] at h
          exact h
    · cases h
  · intro q hm
    rw [← ht] at hm
    rcases import_end s _ _ _ _ _ _ _ _ hm with ⟨_, h, -⟩ | ⟨_, _, _, _, _, h, -⟩ | ⟨q', a, l, b, h, g1, g2, g3⟩
    · cases h
    · cases h
    · cases h
      rw [ht] at g2
      obtain ⟨s', hs'⟩ := run_split n (Good.new state) a b (.line l) g1 (by simp)
      obtain ⟨ls, hls⟩ := IsLines.exists (bytesRead ([] ++ a ++ [.line l]))
      obtain ⟨more, hmore⟩ := hs'.prefix hls
      have e1 : bytesRead ([] ++ a ++ [.line l]) = bytesRead a := by
        rw [List.nil_append, bytesRead_append]; simp [bytesRead]
      have e2 : linesOut ([] ++ a ++ [.line l]) = linesOut a ++ [l] := by
        rw [List.nil_append, linesOut_append]; simp [linesOut]
      rw [e1, g2] at hls
      rw [serverMain_eq (args := { args with infile := some (taken t) }) hcfg hs hd rfl,
        scannedLines_eq chunk _ ls hls, hmore, e2, List.append_assoc]
      have := g3 more
      rw [List.singleton_append, this]

/-! ## A file -/

/-- The trace of a run that has ended. -/
theorem run_ended {n : Nat} {s : Input σ} (h : .stop ∈ s.run r n) : ∃ a, s.run r n = a ++ [.stop] ∧ .stop ∉ a := by
  induction n generalizing s with
  | zero => simp [Input.run] at h
  | succ n ih =>
    rw [Input.run] at h ⊢
    cases hs : s.step r with
    | read got s' =>
      rw [hs] at h
      obtain ⟨a, g1, g2⟩ := ih (by simpa using h)
      exact ⟨.read got :: a, by dsimp only; rw [g1]; rfl, by simpa using g2⟩
    | line l s' =>
      rw [hs] at h
      obtain ⟨a, g1, g2⟩ := ih (by simpa using h)
      exact ⟨.line l :: a, by dsimp only; rw [g1]; rfl, by simpa using g2⟩
    | stop => exact ⟨[], rfl, by simp⟩

theorem client_all (show_ : Bool) (query : Nat → Bytes → Bytes → Out) (a : List InEvent) (ha : .stop ∉ a) (k : Nat) :
    ∃ e, .exit e ∈ clientEvents show_ query k (a ++ [.stop]) ∧
      queryLines show_ query k (linesOut a) = (printed (clientEvents show_ query k (a ++ [.stop])), e) := by
  induction a generalizing k with
  | nil => exact ⟨.ok, List.mem_singleton.mpr rfl, rfl⟩
  | cons x a ih =>
    have ha' : .stop ∉ a := fun h => ha (List.mem_cons_of_mem _ h)
    rw [List.cons_append]
    cases x with
    | read got =>
      rw [clientEvents]
      obtain ⟨e, g1, g2⟩ := ih ha' k
      exact ⟨e, List.mem_cons_of_mem _ g1, g2⟩
    | line l =>
      obtain ⟨o, ho⟩ := isPart_exists l
      rcases o with _ | ⟨u, p⟩
      · rw [clientEvents, linesOut, queryLines, isPart_none_iff.mp ho]
        exact ih ha' k
      · rw [clientEvents, linesOut, queryLines, isPart_some_iff.mp ho]
        dsimp only
        cases hq : query k u p with
        | panic q => exact ⟨_, List.mem_singleton.mpr rfl, rfl⟩
        | ret st md err =>
          cases err with
          | some err => exact ⟨_, List.mem_singleton.mpr rfl, rfl⟩
          | none =>
            obtain ⟨e, g1, g2⟩ := ih ha' (k + 1)
            refine ⟨e, List.mem_cons_of_mem _ g1, ?_⟩
            dsimp only
            rw [g2]
            rfl
    | stop => exact absurd List.mem_cons_self ha

theorem import_all (s : Server) (md : Bytes) (m : Int) (uv : Bool) (a : List InEvent) (ha : .stop ∉ a) (kv : KV) (x y : Nat) :
    match loadLines E s md m uv (linesOut a) kv x y with
    | .crashed q => .crash q ∈ importEvents E s md m uv kv x y (a ++ [.stop])
    | .done kv' x' y' => .listen kv' x' y' ∈ importEvents E s md m uv kv x y (a ++ [.stop]) := by
  induction a generalizing kv x y with
  | nil => exact List.mem_singleton.mpr rfl
  | cons z a ih =>
    have ha' : .stop ∉ a := fun h => ha (List.mem_cons_of_mem _ h)
    rw [List.cons_append]
    cases z with
    | read got =>
      rw [importEvents, show linesOut (.read got :: a) = linesOut a from rfl]
      have := ih ha' kv x y
      revert this
      cases loadLines E s md m uv (linesOut a) kv x y with
      | crashed q => exact fun h => List.mem_cons_of_mem _ h
      | done kv' x' y' => exact fun h => List.mem_cons_of_mem _ h
    | line l =>
      rw [linesOut]
      obtain ⟨o, ho⟩ := isPart_exists l
      rcases o with _ | ⟨u, p⟩
      · rw [loadLines_cons_none ho, importEvents, isPart_none_iff.mp ho]
        exact ih ha' kv x (y + 1)
      · have hev : importEvents E s md m uv kv x y (.line l :: (a ++ [.stop])) =
            match insertRecord E s ⟨u, p, md, m, uv⟩ kv with
            | (_, .panic q) => [.crash q]
            | (kv, .err _) => importEvents E s md m uv kv x (y + 1) (a ++ [.stop])
            | (kv, .ok ()) => importEvents E s md m uv kv (x + 1) y (a ++ [.stop]) := by
          rw [importEvents, isPart_some_iff.mp ho]
          rfl
        rw [loadLines_cons_some ho, hev]
        rcases insertRecord E s ⟨u, p, md, m, uv⟩ kv with ⟨kv1, w | er | q⟩
        · exact ih ha' kv1 (x + 1) y
        · exact ih ha' kv1 x (y + 1)
        · exact List.mem_singleton.mpr rfl
    | stop => exact absurd List.mem_cons_self ha

theorem disk_scanned (chunk chunk' : Nat → Nat) (file : Bytes) (n : Nat) (hn : 3 * file.length + 1 < n) :
    ∃ a, (Input.new file).run (diskReader chunk) n = a ++ [.stop] ∧ .stop ∉ a ∧ linesOut a = scannedLines chunk' file := by
  obtain ⟨h1, h2⟩ := disk_lines chunk file n hn
  obtain ⟨a, g1, g2⟩ := run_ended h1
  refine ⟨a, g1, g2, ?_⟩
  obtain ⟨ls, hls⟩ := IsLines.exists file
  rw [scannedLines_eq chunk' file ls hls, ← h2 ls hls, g1, linesOut_append]
  simp [linesOut]

/-- C87: a file, which `Read` delivers in pieces of any sizes. After at most three steps for each byte, and two, the programs
have done with it what `clientMain` and `serverMain` say (C55, C57, C86), whatever the sizes of the pieces. For a disk that fails after
some bytes take these for the file: the program does not see a difference. -/
theorem C87_file (chunk chunk' : Nat → Nat) (file : Bytes) (n : Nat) (hn : 3 * file.length + 1 < n) :
    (∀ {args : ClientArgs} {get : Transport} {post : Nat → Bytes → Transport} {rand : Nat → (S : Suite) → ZMod S.q}
      {stale : Nat → Nat → UInt8} {ccfg : Config}, clientConfig args.config get stale = some ccfg → args.dumpConfig = false →
      ∃ e, .exit e ∈ clientEvents args.showPassword (fun k u p => Query E ccfg (post k) u p (rand k)) 0
          ((Input.new file).run (diskReader chunk) n) ∧
        clientMain E { args with infile := some file } get post rand stale chunk' =
          ⟨printed (clientEvents args.showPassword (fun k u p => Query E ccfg (post k) u p (rand k)) 0
            ((Input.new file).run (diskReader chunk) n)), decide (ccfg.version ≠ 1), e⟩) ∧
    ∀ {args : ServerArgs} {key : PrivateKey} {stale : Nat → Nat → UInt8} {cfg : ServerConfig} {s : Server},
      serverConfig E args.config key stale = some cfg → NewServer E cfg = .ok s → args.dumpConfig = false →
      (∃ q, serverMain E { args with infile := some file } key stale chunk' = .crashed q ∧
        .crash q ∈ importEvents E s args.metadata args.numVariants args.usernameVariant newKVStore 0 0
          ((Input.new file).run (diskReader chunk) n)) ∨
      ∃ kv x y, serverMain E { args with infile := some file } key stale chunk' = .serving s kv x y ∧
        .listen kv x y ∈ importEvents E s args.metadata args.numVariants args.usernameVariant newKVStore 0 0
          ((Input.new file).run (diskReader chunk) n) := by
  obtain ⟨a, g1, g2, g3⟩ := disk_scanned chunk chunk' file n hn
  rw [g1]
  constructor
  · intro args get post rand stale ccfg hcfg hd
    obtain ⟨e, k1, k2⟩ := client_all args.showPassword (fun k u p => Query E ccfg (post k) u p (rand k)) a g2 0
    refine ⟨e, k1, ?_⟩
    unfold clientMain
    dsimp only
    rw [hcfg]
    dsimp only
    rw [hd, if_neg (by simp), ← g3, k2]
    rfl
  · intro args key stale cfg s hcfg hs hd
    rw [serverMain_eq (args := { args with infile := some file }) hcfg hs hd rfl, ← g3]
    have := import_all (E := E) s args.metadata args.numVariants args.usernameVariant a g2 newKVStore 0 0
    revert this
    dsimp only
    cases loadLines E s args.metadata args.numVariants args.usernameVariant (linesOut a) newKVStore 0 0 with
    | crashed q => exact fun h => .inl ⟨q, rfl, h⟩
    | done kv x y => exact fun h => .inr ⟨kv, x, y, rfl, h⟩

/-- How often `Read` was called. -/
def readCalls (t : List InEvent) : Nat := t.countP (fun e => match e with | .read _ => true | _ => false)

/-- C87: neither program is ever busy without end between two calls of `Read`: after `n` steps it has come to the end, or has
called `Read` at least `n` times minus the number of bytes that it was given. -/
theorem C87_steps (state : σ) (n : Nat) :
    .stop ∈ (Input.new state).run r n ∨
      n ≤ readCalls ((Input.new state).run r n) + (bytesRead ((Input.new state).run r n)).length := by
  rcases run_length (r := r) n (Input.new state) with h | h
  · by_cases hs : .stop ∈ (Input.new state).run r n
    · exact .inl hs
    right
    generalize hrun : (Input.new state).run r n = t at h hs ⊢
    have hcount : t.length = readCalls t + (linesOut t).length := by
      clear hrun h
      induction t with
      | nil => rfl
      | cons e t ih =>
        have := ih (fun h => hs (List.mem_cons_of_mem _ h))
        cases e with
        | read got => simp only [readCalls, linesOut, List.length_cons, List.countP_cons] at this ⊢; simp only [if_true]; omega
        | line l => simp only [readCalls, linesOut, List.length_cons, List.countP_cons] at this ⊢; simp; omega
        | stop => exact absurd List.mem_cons_self hs
    have hgood : ∃ s' : Input σ, Good t s' := by
      rcases List.eq_nil_or_concat t with rfl | ⟨a, e, rfl⟩
      · exact ⟨_, Good.new state⟩
      · rw [List.concat_eq_append] at hrun hs ⊢
        have := run_split n (Good.new state) a [] e hrun (fun h => hs (by simp [h]))
        simpa using this
    obtain ⟨s', -, -, -, -, ls, last, k1, -, k3⟩ := hgood
    have hle : ls.length ≤ (ls.flatMap (fun l => l ++ [10])).length := by
      clear k1 k3
      induction ls with
      | nil => simp
      | cons l ls ih => simp only [List.flatMap_cons, List.length_append, List.length_cons, List.length_nil]; omega
    have hb := congrArg List.length k1
    rw [List.length_append, List.length_append] at hb
    rcases k3 with ⟨rfl, k3⟩ | ⟨k2, -, -, -, -, k3⟩
    · rw [k3, List.length_map] at hcount
      omega
    · have := List.length_pos_iff.mpr k2
      rw [k3, List.length_map, List.length_append] at hcount
      simp at hcount
      omega
  · exact .inl h

/-- A reader that always brings bytes is never found at its end. -/
theorem open_reads (hr : ∀ st room, 0 < room → ∃ b, (r st room).1 = some b ∧ b ≠ [] ∧ b.length ≤ room) (n : Nat)
    {t : List InEvent} {s : Input σ} (h : Good t s) : .read none ∉ s.run r n := by
  induction n generalizing t s with
  | zero => simp [Input.run]
  | succ n ih =>
    rw [Input.run]
    rcases step_good (r := r) h with ⟨got, s', h1, -, -, ⟨s1, -, -, -, e4, e5⟩, h4⟩ | ⟨l, s', h1, -, -, -, -, -, h4⟩ | ⟨h1, -, -⟩
    · rw [h1]
      obtain ⟨b, b1, b2, b3⟩ := hr s1.state (s1.size - (s1.start + s1.held.length)) (by omega)
      unfold Input.read at e5
      dsimp only at e5
      rw [b1] at e5
      dsimp only at e5
      rw [if_neg (by omega), if_pos b2] at e5
      injection e5 with e5 _
      subst e5
      intro hm
      rcases List.mem_cons.mp hm with h | h
      · cases h
      · exact ih h4 h
    · rw [h1]
      intro hm
      rcases List.mem_cons.mp hm with h | h
      · cases h
      · exact ih h4 h
    · rw [h1]
      simp

/-- C87: a server whose input stays open, that is, each call of `Read` brings more, and that is never given 65536 bytes
without a newline, never comes to listening. -/
theorem C87_open {args : ServerArgs} {key : PrivateKey} {stale : Nat → Nat → UInt8} {cfg : ServerConfig} {s : Server}
    (hcfg : serverConfig E args.config key stale = some cfg) (hs : NewServer E cfg = .ok s) (hd : args.dumpConfig = false)
    (hr : ∀ st room, 0 < room → ∃ b, (r st room).1 = some b ∧ b ≠ [] ∧ b.length ≤ room) (state : σ) (n : Nat) {t : List ImportEvent}
    (ht : importEvents E s args.metadata args.numVariants args.usernameVariant newKVStore 0 0 ((Input.new state).run r n) = t)
    (hlines : ∀ lines rest, WholeLinesOf (taken t) lines rest → rest.length < 65536) (kv : KV) (x y : Nat) :
    .listen kv x y ∉ t := by
  intro hm
  rcases ((C87_server hcfg hs hd state n ht (fun _ => 1)).1 kv x y hm).2 with h | ⟨lines, rest, h1, h2⟩
  · rw [← ht] at h
    rcases import_end s _ _ _ _ _ _ _ _ h with ⟨_, e, h⟩ | ⟨_, _, _, _, _, e, -⟩ | ⟨_, _, _, _, e, -⟩
    · cases e; exact open_reads hr n (Good.new state) h
    · cases e
    · cases e
  · have := hlines lines rest h1
    omega

/-! ## Examples -/

/-- A terminal or a pipe, on which these pieces come. -/
def pieces : Reader (List Bytes) := fun l _ =>
  match l with
  | [] => (none, [])
  | b :: l => (some b, l)

/-- C87_prompt: a first line that comes in two pieces, the second of which has also a beginning of the next line. The answer for the first line
is printed before the next call of `Read`; the answer for the second one, whose newline is missing, at the end. -/
theorem C87_example :
    clientEvents false (fun _ _ _ => .ret NotInBreach none none) 0
        ((Input.new [ascii "user:pass", ascii "word1\nbob:", ascii "x"]).run pieces 10) =
      [.read (some (ascii "user:pass")), .read (some (ascii "word1\nbob:")),
        .print (ascii "{\"username\":\"user\",\"status\":\"password not in breach\"}\n"),
        .read (some (ascii "x")), .read none,
        .print (ascii "{\"username\":\"bob\",\"status\":\"password not in breach\"}\n"), .exit .ok] := by
  decide +kernel

/-- C87_open: an empty line, again and again: the example server reads for ever and never listens. -/
theorem C87_open_example (stale : Nat → Nat → UInt8) (n : Nat) (kv : KV) (x y : Nat) :
    .listen kv x y ∉ importEvents Example.ext Example.server [] 0 false newKVStore 0 0
      ((Input.new ()).run (fun _ _ => (some [10], ())) n) := by
  have hr : ∀ (st : Unit) (room : Nat), 0 < room →
      ∃ b : Bytes, ((fun _ _ => (some [10], ()) : Reader Unit) st room).1 = some b ∧ b ≠ [] ∧ b.length ≤ room :=
    fun _ room h => ⟨[10], rfl, by simp, h⟩
  refine C87_open (E := Example.ext) (args := ⟨none, false, [], 0, false, none⟩) (key := ⟨7⟩) (stale := stale) rfl
    Example.newServer_eq rfl hr () n rfl ?_ kv x y
  intro lines rest hw
  have hread : ∀ (s : Input Unit) (g : Bytes) (s' : Input Unit), s.read (fun _ _ => (some [10], ())) = .read (some g) s' →
      g = [10] ∨ g = [] := by
    intro s g s' h
    unfold Input.read at h
    dsimp only at h
    split at h
    · injection h with h _; cases h
    · rw [if_pos (by simp)] at h
      injection h with h _
      exact .inl (Option.some.inj h).symm
  have hall : ∀ (m : Nat) (s : Input Unit), ∀ b ∈ bytesRead (s.run (fun _ _ => (some [10], ())) m), b = 10 := by
    intro m
    induction m with
    | zero => intro s b hb; simp [Input.run, bytesRead] at hb
    | succ m ih =>
      intro s b hb
      rw [Input.run] at hb
      cases hs : s.step (fun _ _ => (some [10], ())) with
      | read got s' =>
        rw [hs] at hb
        cases got with
        | none => exact ih s' b hb
        | some g =>
          rw [bytesRead, List.mem_append] at hb
          rcases hb with hb | hb
          · have : g = [10] ∨ g = [] := by
              unfold Input.step at hs
              dsimp only at hs
              split at hs
              · exact hread s g s' hs
              · split at hs
                · cases hs
                · split at hs
                  · cases hs
                  · split at hs
                    · cases hs
                    · exact hread _ g s' hs
            rcases this with rfl | rfl
            · simpa using hb
            · simp at hb
          · exact ih s' b hb
      | line l s' => rw [hs] at hb; exact ih s' b hb
      | stop => rw [hs] at hb; simp [bytesRead] at hb
  have htaken : ∀ (t : List InEvent) (kv : KV) (x y : Nat), ∀ b ∈ taken (importEvents Example.ext Example.server [] 0 false kv x y t),
      b ∈ bytesRead t := by
    intro t
    induction t with
    | nil => intro kv x y b hb; simp [importEvents, taken] at hb
    | cons e t ih =>
      intro kv x y b hb
      cases e with
      | read got =>
        rw [importEvents] at hb
        cases got with
        | none => exact ih kv x y b hb
        | some g =>
          rw [taken, List.mem_append] at hb
          rw [bytesRead, List.mem_append]
          exact hb.imp id (ih kv x y b)
      | line l =>
        rw [importEvents] at hb
        split at hb
        · split at hb
          · simp [taken] at hb
          · exact ih _ _ _ b hb
          · exact ih _ _ _ b hb
        · exact ih _ _ _ b hb
      | stop => simp [importEvents, taken] at hb
  have hrest : rest = [] := by
    cases hrest : rest with
    | nil => rfl
    | cons b rest' =>
      exfalso
      have hb : b ∈ rest := by rw [hrest]; exact List.mem_cons_self
      have := hall n (Input.new ()) b (htaken _ _ _ _ b (by rw [hw.1]; exact List.mem_append_right _ hb))
      rw [this] at hb
      exact hw.2.2 hb
  rw [hrest]
  simp

/-- C87_server: a credential in two pieces, then the end: the example server listens, with one success, after the read that failed. -/
theorem C87_listen_example :
    ∃ kv, importEvents Example.ext Example.server [] 0 false newKVStore 0 0
        ((Input.new [ascii "user:pass", ascii "word1"]).run pieces 10) =
      [.read (some (ascii "user:pass")), .read (some (ascii "word1")), .read none, .listen kv 1 0] := by
  have hrun : (Input.new [ascii "user:pass", ascii "word1"]).run pieces 10 =
      [.read (some (ascii "user:pass")), .read (some (ascii "word1")), .read none, .line (ascii "user:password1"), .stop] := by
    decide +kernel
  rw [hrun]
  obtain ⟨kv, hkv⟩ : ∃ kv, insert Example.ext Example.server (ascii "user") (ascii "password1") [] 0 false newKVStore = (kv, .ok ()) :=
    example_insert ⟨ascii "user", ascii "password1", [], 0, false⟩ newKVStore (by decide) (by decide) (by decide) (by decide) (by decide)
  refine ⟨kv, ?_⟩
  rw [importEvents, importEvents, importEvents, importEvents,
    show splitN2 (ascii "user:password1") 58 = [ascii "user", ascii "password1"] by decide +kernel]
  dsimp only
  rw [hkv]
  rfl

end Migp.Props
