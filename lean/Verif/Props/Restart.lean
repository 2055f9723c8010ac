import Verif.Model.Restart
import Verif.Props.FileOrder
import Verif.Props.Mismatch
/-!
# C86: crashes, restarts and failing disks

The server process may be killed at any time and started again at any time, each time perhaps with a new key; the credentials file
may be replaced at any time; reading it may fail after any number of bytes; requests and replies may be lost or cut.
-/
namespace Migp.Props
open Spec Bufio Http Mutator

variable {E : Ext} {args : BootArgs} {ccfg : Config} {c : Client}

/-- The files that are in place at some time: the first one, and those it is replaced by. -/
def filesOf (file : Bytes) (es : List Event) : List Bytes :=
  file :: es.filterMap (fun e => match e with | .replace f => some f | _ => none)

/-- What `Query` returns for a verdict: there is metadata exactly with a breach. -/
def verdictOut (metadata : Bytes) (v : Verdict) : Out :=
  .ret v.status (if v = .clean then none else some metadata) none

/-- An error, and with it nothing but "not in breach". -/
def IsFailure (o : Out) : Prop := ∃ e, o = .ret NotInBreach none (some e)

/-! ## The import, line by line -/

theorem loadLines_append (s : Server) (md : Bytes) (n : Int) (uv : Bool) (l l' : List Bytes) (kv : KV) (a b : Nat) :
    loadLines E s md n uv (l ++ l') kv a b =
      match loadLines E s md n uv l kv a b with
      | .crashed q => .crashed q
      | .done kv a b => loadLines E s md n uv l' kv a b := by
  induction l generalizing kv a b with
  | nil => rfl
  | cons line l ih =>
    obtain ⟨o, ho⟩ := isPart_exists line
    rw [List.cons_append]
    rcases o with _ | ⟨u, p⟩
    · rw [loadLines_cons_none ho, loadLines_cons_none ho, ih]
    · rw [loadLines_cons_some ho, loadLines_cons_some ho]
      rcases insertRecord E s ⟨u, p, md, n, uv⟩ kv with ⟨kv1, w | e | q⟩
      · exact ih _ _ _
      · exact ih _ _ _
      · rfl

/-- One step of the import is one line of `loadLines`. -/
theorem step_line (opened : Bytes) (s : Server) (line : Bytes) (rest : List Bytes) (kv : KV) (a b : Nat) :
    match loadLines E s args.metadata args.numVariants args.usernameVariant [line] kv a b with
    | .crashed _ => Proc.step E args (.loading opened s (line :: rest) kv) = .down
    | .done kv' _ _ => Proc.step E args (.loading opened s (line :: rest) kv) = .loading opened s rest kv' := by
  obtain ⟨o, ho⟩ := isPart_exists line
  rcases o with _ | ⟨u, p⟩
  · rw [loadLines_cons_none ho, Proc.step, isPart_none_iff.mp ho]
    rfl
  · rw [loadLines_cons_some ho, Proc.step, isPart_some_iff.mp ho]
    dsimp only
    change match (match insertRecord E s ⟨u, p, args.metadata, args.numVariants, args.usernameVariant⟩ kv with
        | (_, .panic q) => Load.crashed q
        | (kv, .err _) => loadLines E s args.metadata args.numVariants args.usernameVariant [] kv a (b + 1)
        | (kv, .ok ()) => loadLines E s args.metadata args.numVariants args.usernameVariant [] kv (a + 1) b) with
      | .crashed _ => (match insertRecord E s ⟨u, p, args.metadata, args.numVariants, args.usernameVariant⟩ kv with
        | (_, .panic _) => Proc.down
        | (kv, _) => .loading opened s rest kv) = .down
      | .done kv' _ _ => (match insertRecord E s ⟨u, p, args.metadata, args.numVariants, args.usernameVariant⟩ kv with
        | (_, .panic _) => Proc.down
        | (kv, _) => .loading opened s rest kv) = .loading opened s rest kv'
    rcases insertRecord E s ⟨u, p, args.metadata, args.numVariants, args.usernameVariant⟩ kv with ⟨kv1, w | e | q⟩ <;> rfl

/-- A process that is being loaded, `k` lines later. -/
theorem steps_loading (opened : Bytes) (s : Server) (lines rest : List Bytes) (kv : KV) (a b : Nat) :
    match loadLines E s args.metadata args.numVariants args.usernameVariant lines kv a b with
    | .crashed _ => (Proc.step E args)^[lines.length] (.loading opened s (lines ++ rest) kv) = .down
    | .done kv' _ _ => (Proc.step E args)^[lines.length] (.loading opened s (lines ++ rest) kv) = .loading opened s rest kv' := by
  have hdown : ∀ n, (Proc.step E args)^[n] .down = .down := by
    intro n
    induction n with
    | zero => rfl
    | succ n ih => rw [Function.iterate_succ_apply]; exact ih
  induction lines generalizing kv a b with
  | nil => rfl
  | cons line lines ih =>
    have h1 := loadLines_append (E := E) s args.metadata args.numVariants args.usernameVariant [line] lines kv a b
    rw [List.singleton_append] at h1
    rw [h1, List.length_cons, Function.iterate_succ_apply, List.cons_append]
    have h2 := step_line (E := E) (args := args) opened s line (lines ++ rest) kv a b
    cases hl : loadLines E s args.metadata args.numVariants args.usernameVariant [line] kv a b with
    | crashed q =>
      rw [hl] at h2
      dsimp only at h2 ⊢
      rw [h2]
      exact hdown _
    | done kv' a' b' =>
      rw [hl] at h2
      dsimp only at h2 ⊢
      rw [h2]
      exact ih kv' a' b'

/-- C86: a process that is left alone does what the server program does (`serverMain`, C55) on the bytes that are delivered: after
one step for each line, and one more, it serves the same store with the same key, or has ended. If reading fails after `readable`
bytes, that is as if the file ended there. -/
theorem C86_boot (file : Bytes) (key : PrivateKey) (stale : Nat → Nat → UInt8) (chunk : Nat → Nat) (readable : Nat) :
    (Proc.step E args)^[(scannedLines chunk (file.take readable)).length + 1]
        (bootProc E args file key stale chunk readable) =
      match serverMain E (args.on (file.take readable)) key stale chunk with
      | .serving s kv _ _ => .serving (file.take readable) s kv
      | _ => .down := by
  have hdown : ∀ n, (Proc.step E args)^[n] .down = .down := by
    intro n
    induction n with
    | zero => rfl
    | succ n ih => rw [Function.iterate_succ_apply]; exact ih
  unfold bootProc serverMain BootArgs.on
  dsimp only
  cases serverConfig E args.config key stale with
  | none => exact hdown _
  | some cfg =>
    dsimp only
    by_cases hd : args.dumpConfig = true
    · rw [if_pos hd, if_pos hd]; exact hdown _
    · rw [if_neg hd, if_neg hd]
      cases newCmdServer E cfg with
      | err e => exact hdown _
      | panic q => exact hdown _
      | ok s =>
        dsimp only
        have h := steps_loading (E := E) (args := args) (file.take readable) s.migpServer
          (scannedLines chunk (file.take readable)) [] s.kv 0 0
        rw [List.append_nil] at h
        rw [Function.iterate_succ_apply']
        cases hl : loadLines E s.migpServer args.metadata args.numVariants args.usernameVariant
            (scannedLines chunk (file.take readable)) s.kv 0 0 with
        | crashed q =>
          rw [hl] at h
          dsimp only at h ⊢
          rw [h]; rfl
        | done kv a b =>
          rw [hl] at h
          dsimp only at h ⊢
          rw [h]; rfl

/-! ## What is true at all times -/

/-- A process that was started by one of the events, over a file of `files`. -/
def Started (E : Ext) (args : BootArgs) (files : List Bytes) (es : List Event) : Proc → Prop
  | .down => True
  | .loading opened s rest kv => ∃ key stale chunk readable cfg f done a b, .start key stale chunk readable ∈ es ∧ f ∈ files ∧
      opened = f.take readable ∧ serverConfig E args.config key stale = some cfg ∧ args.dumpConfig = false ∧
      NewServer E cfg = .ok s ∧ scannedLines chunk opened = done ++ rest ∧
      loadLines E s args.metadata args.numVariants args.usernameVariant done newKVStore 0 0 = .done kv a b
  | .serving opened s kv => ∃ key stale chunk readable cfg f a b, .start key stale chunk readable ∈ es ∧ f ∈ files ∧
      opened = f.take readable ∧ serverConfig E args.config key stale = some cfg ∧ NewServer E cfg = .ok s ∧
      serverMain E (args.on opened) key stale chunk = .serving s kv a b

theorem Started.boot {files : List Bytes} {es : List Event} {file : Bytes} {key : PrivateKey} {stale : Nat → Nat → UInt8}
    {chunk : Nat → Nat} {readable : Nat} (he : .start key stale chunk readable ∈ es) (hf : file ∈ files) :
    Started E args files es (bootProc E args file key stale chunk readable) := by
  unfold bootProc
  cases hcfg : serverConfig E args.config key stale with
  | none => exact trivial
  | some cfg =>
    dsimp only
    by_cases hd : args.dumpConfig = true
    · rw [if_pos hd]; exact trivial
    · rw [if_neg hd]
      unfold newCmdServer
      cases hs : NewServer E cfg with
      | err e => exact trivial
      | panic q => exact trivial
      | ok s =>
        exact ⟨key, stale, chunk, readable, cfg, file, [], 0, 0, he, hf, rfl, hcfg, by simpa using hd, hs, rfl, rfl⟩

theorem Started.step {files : List Bytes} {es : List Event} {proc : Proc} (h : Started E args files es proc) :
    Started E args files es (proc.step E args) := by
  match proc with
  | .down => exact trivial
  | .serving opened s kv => exact h
  | .loading opened s [] kv =>
    obtain ⟨key, stale, chunk, readable, cfg, f, done, a, b, h1, h2, h3, h4, h5, h6, h7, h8⟩ := h
    rw [List.append_nil] at h7
    refine ⟨key, stale, chunk, readable, cfg, f, a, b, h1, h2, h3, h4, h6, ?_⟩
    rw [serverMain_eq (cfg := cfg) (s := s) (file := opened) h4 h6 h5 rfl, h7]
    have : loadLines E s (args.on opened).metadata (args.on opened).numVariants (args.on opened).usernameVariant done newKVStore 0 0 =
      .done kv a b := h8
    rw [this]
  | .loading opened s (line :: rest) kv =>
    obtain ⟨key, stale, chunk, readable, cfg, f, done, a, b, h1, h2, h3, h4, h5, h6, h7, h8⟩ := h
    have hs := step_line (E := E) (args := args) opened s line rest kv a b
    cases hl : loadLines E s args.metadata args.numVariants args.usernameVariant [line] kv a b with
    | crashed q =>
      rw [hl] at hs
      dsimp only at hs
      rw [hs]; exact trivial
    | done kv' a' b' =>
      rw [hl] at hs
      dsimp only at hs
      rw [hs]
      refine ⟨key, stale, chunk, readable, cfg, f, done ++ [line], a', b', h1, h2, h3, h4, h5, h6, ?_, ?_⟩
      · rw [h7, List.append_assoc]; rfl
      · rw [loadLines_append, h8]
        exact hl

theorem Started.mono {files files' : List Bytes} {es es' : List Event} {proc : Proc} (hf : ∀ f ∈ files, f ∈ files')
    (he : ∀ e ∈ es, e ∈ es') (h : Started E args files es proc) : Started E args files' es' proc := by
  match proc with
  | .down => exact trivial
  | .loading opened s rest kv =>
    obtain ⟨key, stale, chunk, readable, cfg, f, done, a, b, h1, h2, h⟩ := h
    exact ⟨key, stale, chunk, readable, cfg, f, done, a, b, he _ h1, hf _ h2, h⟩
  | .serving opened s kv =>
    obtain ⟨key, stale, chunk, readable, cfg, f, a, b, h1, h2, h⟩ := h
    exact ⟨key, stale, chunk, readable, cfg, f, a, b, he _ h1, hf _ h2, h⟩

theorem started_next {files : List Bytes} {es : List Event} {w : World} (h : Started E args files es w.proc)
    (hw : w.file ∈ files) (e : Event) (he : e ∈ es) (hr : ∀ f, e = .replace f → f ∈ files) :
    Started E args files es (w.next E args e).proc ∧ (w.next E args e).file ∈ files := by
  cases e with
  | replace f => exact ⟨h, hr f rfl⟩
  | start key stale chunk readable =>
    obtain ⟨file, proc⟩ := w
    unfold World.next
    cases proc with
    | down => exact ⟨Started.boot he hw, hw⟩
    | loading opened s rest kv => exact ⟨h, hw⟩
    | serving opened s kv => exact ⟨h, hw⟩
  | step => exact ⟨h.step, hw⟩
  | kill => exact ⟨trivial, hw⟩
  | query u p rand stale luck => exact ⟨h, hw⟩

theorem mem_filesOf {file f : Bytes} {es : List Event} (h : .replace f ∈ es) : f ∈ filesOf file es := by
  unfold filesOf
  exact List.mem_cons_of_mem _ (List.mem_filterMap.mpr ⟨_, h, rfl⟩)

theorem started_after {files : List Bytes} {es : List Event} (es' : List Event) (w : World) (h : Started E args files es w.proc)
    (hw : w.file ∈ files) (he : ∀ e ∈ es', e ∈ es) (hr : ∀ f, .replace f ∈ es' → f ∈ files) :
    Started E args files es (w.after E args es').proc ∧ (w.after E args es').file ∈ files := by
  induction es' generalizing w with
  | nil => exact ⟨h, hw⟩
  | cons e es' ih =>
    have h' := started_next h hw e (he e List.mem_cons_self) (fun f hf => hr f (hf ▸ List.mem_cons_self))
    exact ih (w.next E args e) h'.1 h'.2 (fun e he' => he e (List.mem_cons_of_mem _ he'))
      (fun f hf => hr f (List.mem_cons_of_mem _ hf))

/-- C86: whenever a process serves, whatever crashes, restarts and replacements came before: it was started by one of the events, over
a file that was in place at some time, of which it read the bytes that were delivered; and its key and its store are the ones that the
server program comes to if it is run on those bytes from the beginning to the end. Nothing of what processes before it stored is there,
and no store is served that only part of the lines were read into. -/
theorem C86_serving (file : Bytes) (es : List Event) {opened : Bytes} {s : Server} {kv : KV}
    (h : (World.after E args ⟨file, .down⟩ es).proc = .serving opened s kv) :
    ∃ key stale chunk readable f a b, .start key stale chunk readable ∈ es ∧ f ∈ filesOf file es ∧
      opened = f.take readable ∧ serverMain E (args.on opened) key stale chunk = .serving s kv a b := by
  have hs := (started_after (E := E) (args := args) (files := filesOf file es) (es := es) es ⟨file, .down⟩ trivial
    (List.mem_cons_self) (fun _ h => h) (fun f hf => mem_filesOf hf)).1
  rw [h] at hs
  obtain ⟨key, stale, chunk, readable, cfg, f, a, b, h1, h2, h3, -, -, h4⟩ := hs
  exact ⟨key, stale, chunk, readable, f, a, b, h1, h2, h3, h4⟩

/-! ## The answers -/

/-- The usual assumptions (as for C60): the client has the public configuration of the server, whatever key that makes; bit sizes,
metadata and the number of variants are in range; elements have 33 bytes; usernames and passwords asked for are not too long; no blind
is zero and nothing hashes to the identity; and no two entries of a bucket have the same tag by accident. -/
structure Usual (E : Ext) (args : BootArgs) (ccfg : Config) (c : Client) (similarTo : Bytes → List Bytes) (files : List Bytes)
    (es : List Event) : Prop where
  client : NewClient E ccfg = .ok c
  same : ∀ key stale chunk readable, .start key stale chunk readable ∈ es →
    ∀ cfg, serverConfig E args.config key stale = some cfg → cfg.toConfig = ccfg
  bits : 0 ≤ ccfg.bucketIDBitSize ∧ ccfg.bucketIDBitSize ≤ 32
  metadata : args.metadata.length ≤ 8160
  variants : 0 ≤ args.numVariants ∧ args.numVariants ≤ maxSliceCap
  similar : ∀ p, mutate dasRules p args.numVariants = .ok (similarTo p)
  elemLen : c.suite.elemLen = 33
  asked : ∀ u p rand stale luck, .query u p rand stale luck ∈ es → u.length ≤ 65536 ∧ p.length ≤ 65536 ∧ rand c.suite ≠ 0 ∧
    c.suite.hashToElement (Spec.oprfInput E ccfg.slowHasherID u p) ≠ 0
  tags : ∀ key stale chunk readable, .start key stale chunk readable ∈ es →
    ∀ cfg s, serverConfig E args.config key stale = some cfg → NewServer E cfg = .ok s →
    ∀ f ∈ files, ∀ parts, ReadsAs (f.take readable) parts →
    ∀ y ∈ storedAll args.metadata args.numVariants args.usernameVariant similarTo (credentials parts),
    ∀ u p rand stale luck, .query u p rand stale luck ∈ es → ¬ TagCollision E s y u p

theorem lookup_stored {uv : Bool} {sim : Bytes → List Bytes} (md : Bytes) (n : Int) (creds : List (Bytes × Bytes)) (u p : Bytes) :
    (match lookup (storedAll md n uv sim creds) u p with
      | none => Out.ret NotInBreach none none
      | some x => .ret (MetadataType.toBreachStatus x.flag) (some x.metadata) none) = verdictOut md (fileVerdict uv sim creds u p) := by
  rw [lookup_verdict]
  cases fileVerdict uv sim creds u p <;> rfl

theorem query_failed (hc : NewClient E ccfg = .ok c) (hb : 0 ≤ ccfg.bucketIDBitSize ∧ ccfg.bucketIDBitSize ≤ 32)
    (post : Bytes → Transport) (hpost : ∀ b, post b = .failed ∨ (∃ st body, post b = .reply st body ∧ (st ≠ 200 ∨ body = none)))
    (u p : Bytes) (hu : u.length ≤ 65536) (hp : p.length ≤ 65536) (rand : (S : Suite) → ZMod S.q) :
    IsFailure (Query E ccfg post u p rand) := by
  rcases C54_bad_reply (E := E) ccfg post hpost u p rand with h | ⟨q, h⟩
  · exact h
  · exfalso
    obtain ⟨id, -, -, h2⟩ := request_ok ccfg c hc u p hu hp hb.1 hb.2 (rand c.suite)
    unfold Query at h
    rw [hc] at h
    dsimp only at h
    rw [h2] at h
    dsimp only at h
    rcases hpost (ClientRequest.marshalJSON _) with h3 | ⟨st, body, h3, h4⟩
    · rw [h3] at h; cases h
    · rw [h3] at h
      dsimp only at h
      by_cases hst : st ≠ 200
      · rw [if_pos hst] at h; cases h
      · rw [if_neg hst] at h
        rcases h4 with h4 | rfl
        · exact hst h4
        · cases h

/-- What a query gives, whatever the state of the process. -/
theorem query_started {similarTo : Bytes → List Bytes} {files : List Bytes} {es : List Event}
    (hU : Usual E args ccfg c similarTo files es) {proc : Proc} (hS : Started E args files es proc) {u p : Bytes}
    {rand : (S : Suite) → ZMod S.q} {stale : Nat → Nat → UInt8} {luck : Luck} (hq : .query u p rand stale luck ∈ es) :
    IsFailure (Query E ccfg (proc.post stale luck) u p rand) ∨
    ∃ opened s kv, proc = .serving opened s kv ∧ luck = .arrives ∧ ∀ parts, ReadsAs opened parts →
      Query E ccfg (proc.post stale luck) u p rand =
        verdictOut args.metadata (fileVerdict args.usernameVariant similarTo (credentials parts) u p) := by
  obtain ⟨hu, hp, hr, he⟩ := hU.asked u p rand stale luck hq
  have fail := fun post hpost => query_failed hU.client hU.bits post hpost u p hu hp rand
  match proc, hS with
  | .down, _ => exact .inl (fail _ (fun b => .inl rfl))
  | .loading opened s rest kv, _ => exact .inl (fail _ (fun b => .inl rfl))
  | .serving opened s kv, hS =>
    cases luck with
    | lost => 
      refine .inl (fail _ (fun b => .inl ?_))
      unfold Proc.post
      dsimp only
    | cut =>
      refine .inl (fail _ (fun b => ?_))
      unfold Proc.post
      dsimp only
      cases deliver s kv stale (ascii "/evaluate") b with
      | failed => exact .inl rfl
      | reply st body => exact .inr ⟨st, none, rfl, .inr rfl⟩
    | arrives =>
      have hpost : Proc.post stale .arrives (.serving opened s kv) = deliver s kv stale (ascii "/evaluate") := by
        funext b
        rfl
      rw [hpost]
      obtain ⟨key, stale', chunk, readable, cfg, f, a, b, h1, h2, h3, h4, h5, h6⟩ := hS
      have hsame := hU.same _ _ _ _ h1 cfg h4
      have hcl := hU.client
      have hbits := hU.bits
      subst hsame
      obtain ⟨hb0, hb32⟩ := hbits
      have hsuite := suite_eq hcl h5
      by_cases ht : Spec.tweak s.suite s.privateKey = 0
      · exact .inl ⟨_, C54_unusable_key hcl h5 ht kv stale u p rand hu hp hb0 hb32⟩
      · refine .inr ⟨opened, s, kv, rfl, rfl, fun parts hparts => ?_⟩
        obtain ⟨variants, hv, g1, g2⟩ := C55_load (chunk := chunk) (args := args.on opened) (file := opened) h4 h5
          (by
            cases hd : args.dumpConfig with
            | false => exact hd
            | true =>
              exfalso
              unfold serverMain at h6
              have e : serverConfig E (args.on opened).config key stale' = some cfg := h4
              rw [e] at h6
              have e' : (args.on opened).dumpConfig = true := hd
              dsimp only at h6
              rw [if_pos e'] at h6
              cases h6) rfl hb0 hb32 ht
          hU.metadata hU.variants.1 hU.variants.2 hparts
        have hvar : variants = similarTo := by
          funext q
          exact Res.ok.inj ((hv q).symm.trans (hU.similar q))
        rw [hvar] at g1 g2
        by_cases hlong : ∃ x ∈ credentials parts, ∃ v ∈ similarTo x.2, 65536 < v.length
        · obtain ⟨q, hq'⟩ := g2 hlong
          rw [h6] at hq'
          cases hq'
        · obtain ⟨kv', k1, k2⟩ := g1 (fun x hx v hvx => by
            by_contra hlt
            exact hlong ⟨x, hx, v, hvx, by omega⟩)
          rw [h6] at k1
          cases k1
          rw [C54_ideal_lookup hcl h5 (by rw [← hsuite]; exact hU.elemLen) ht k2 stale u p rand hr he hu hp hb0 hb32
            (fun y hy => hU.tags _ _ _ _ h1 cfg s h4 h5 f h2 parts (h3 ▸ hparts) y hy u p rand stale .arrives hq)]
          exact lookup_stored _ _ _ _ _

/-- The answers among a list of events. -/
theorem run_started {similarTo : Bytes → List Bytes} {files files' : List Bytes} {es : List Event}
    (hU : Usual E args ccfg c similarTo files es) (hf : ∀ f ∈ files', f ∈ files) (es' : List Event) (w : World)
    (hS : Started E args files' es w.proc) (hw : w.file ∈ files') (he : ∀ e ∈ es', e ∈ es)
    (hr : ∀ f, .replace f ∈ es' → f ∈ files') :
    ∀ x ∈ w.run E args ccfg es', IsFailure x.out ∨
      ∃ f ∈ files', ∃ key stale chunk readable, .start key stale chunk readable ∈ es ∧
        ∀ parts, ReadsAs (f.take readable) parts →
          x.out = verdictOut args.metadata
            (fileVerdict args.usernameVariant similarTo (credentials parts) x.username x.password) := by
  induction es' generalizing w with
  | nil => intro x hx; cases hx
  | cons e es' ih =>
    have h' := started_next hS hw e (he e List.mem_cons_self) (fun f hf => hr f (hf ▸ List.mem_cons_self))
    have ih' := ih (w.next E args e) h'.1 h'.2 (fun e he' => he e (List.mem_cons_of_mem _ he'))
      (fun f hf => hr f (List.mem_cons_of_mem _ hf))
    cases e with
    | query u p rand stale luck =>
      intro x hx
      rw [World.run] at hx
      rcases List.mem_cons.mp hx with rfl | hx
      · rcases query_started hU (hS.mono hf (fun _ h => h)) (he _ List.mem_cons_self) with h | ⟨opened, s, kv, h1, -, h2⟩
        · exact .inl h
        · rw [h1] at hS
          obtain ⟨key, stale', chunk, readable, cfg, f, a, b, k1, k2, k3, -⟩ := hS
          exact .inr ⟨f, k2, key, stale', chunk, readable, k1, fun parts hp => h2 parts (k3 ▸ hp)⟩
      · exact ih' x hx
    | replace f => exact ih'
    | start key stale chunk readable => exact ih'
    | step => exact ih'
    | kill => exact ih'

/-- C86: whatever crashes, restarts, replacements of the file, read errors and losses there are, and whenever a client asks: it gets an
error, or the verdict of a file that was in place at some time, or of the beginning of it if reading it failed at a start. In
particular nobody is told anything while a file is being read in, and an answer of one process never mixes what two files say. -/
theorem C86_answers {similarTo : Bytes → List Bytes} (file : Bytes) (es : List Event)
    (hU : Usual E args ccfg c similarTo (filesOf file es) es) :
    ∀ x ∈ World.run E args ccfg ⟨file, .down⟩ es, IsFailure x.out ∨
      ∃ f ∈ filesOf file es, ∃ key stale chunk readable, .start key stale chunk readable ∈ es ∧
        ∀ parts, ReadsAs (f.take readable) parts →
          x.out = verdictOut args.metadata
            (fileVerdict args.usernameVariant similarTo (credentials parts) x.username x.password) :=
  run_started hU (fun _ h => h) es ⟨file, .down⟩ trivial List.mem_cons_self (fun _ h => h) (fun _ hf => mem_filesOf hf)

/-- C86: as long as the file is not replaced and reading it does not fail, every answer that is not an error is the verdict of the file:
crashes and restarts, and the new keys that come with them, change no answer. -/
theorem C86_restarts {similarTo : Bytes → List Bytes} (file : Bytes) (es : List Event)
    (hU : Usual E args ccfg c similarTo [file] es) (hfix : ∀ f, .replace f ∉ es)
    (hread : ∀ key stale chunk readable, .start key stale chunk readable ∈ es → file.length ≤ readable)
    {parts : List (Option (Bytes × Bytes))} (hp : ReadsAs file parts) :
    ∀ x ∈ World.run E args ccfg ⟨file, .down⟩ es, IsFailure x.out ∨
      x.out = verdictOut args.metadata
        (fileVerdict args.usernameVariant similarTo (credentials parts) x.username x.password) := by
  intro x hx
  rcases run_started hU (fun _ h => h) es ⟨file, .down⟩ trivial List.mem_cons_self (fun _ h => h)
    (fun f hf => absurd hf (hfix f)) x hx with h | ⟨f, hf, key, stale, chunk, readable, h1, h2⟩
  · exact .inl h
  · rw [List.mem_singleton] at hf
    subst hf
    refine .inr (h2 parts ?_)
    rw [List.take_of_length_le (hread _ _ _ _ h1)]
    exact hp

/-! ## Coming back -/

theorem run_steps (w : World) (n : Nat) (es : List Event) :
    w.run E args ccfg (List.replicate n .step ++ es) =
      World.run E args ccfg ⟨w.file, (Proc.step E args)^[n] w.proc⟩ es := by
  induction n generalizing w with
  | zero => rfl
  | succ n ih =>
    rw [List.replicate_succ, List.cons_append, Function.iterate_succ_apply]
    exact ih (w.next E args .step)

/-- C86: after any history, a server that is started again and left alone for one step per line of the file, and one more, gives
the verdicts of the file that is in place. -/
theorem C86_recovers {similarTo : Bytes → List Bytes} (w : World) {key : PrivateKey} {stale stale' : Nat → Nat → UInt8}
    {chunk : Nat → Nat} {readable : Nat} {cfg : ServerConfig} {s : Server} {u p : Bytes} {rand : (S : Suite) → ZMod S.q}
    (hU : Usual E args ccfg c similarTo [w.file] [.start key stale chunk readable, .query u p rand stale' .arrives])
    (hread : w.file.length ≤ readable)
    (hcfg : serverConfig E args.config key stale = some cfg) (hd : args.dumpConfig = false) (hs : NewServer E cfg = .ok s)
    (ht : Spec.tweak s.suite s.privateKey ≠ 0) {parts : List (Option (Bytes × Bytes))} (hp : ReadsAs w.file parts)
    (hlen : ∀ x ∈ credentials parts, x.2.length ≤ 49152) :
    w.run E args ccfg ([.kill, .start key stale chunk readable] ++
        (List.replicate ((scannedLines chunk w.file).length + 1) .step ++ [.query u p rand stale' .arrives])) =
      [⟨u, p, verdictOut args.metadata
        (fileVerdict args.usernameVariant similarTo (credentials parts) u p)⟩] := by
  have hsame := hU.same key stale chunk readable List.mem_cons_self cfg hcfg
  have hb := hU.bits
  rw [← hsame] at hb
  have htake : w.file.take readable = w.file := List.take_of_length_le hread
  obtain ⟨variants, kv, hv, h1, h2⟩ := C55_load_short (chunk := chunk) (args := args.on w.file) (file := w.file) hcfg hs hd rfl
    hb.1 hb.2 ht hU.metadata hU.variants.1 hU.variants.2 hp hlen
  have hboot := C86_boot (E := E) (args := args) w.file key stale chunk readable
  rw [htake, h1] at hboot
  dsimp only at hboot
  have hmem : Event.query u p rand stale' .arrives ∈
      [.start key stale chunk readable, Event.query u p rand stale' .arrives] := List.mem_cons_of_mem _ List.mem_cons_self
  change World.run E args ccfg ⟨w.file, bootProc E args w.file key stale chunk readable⟩
    (List.replicate ((scannedLines chunk w.file).length + 1) .step ++ [.query u p rand stale' .arrives]) = _
  rw [run_steps]
  dsimp only
  rw [hboot]
  have hS : Started E args [w.file] [.start key stale chunk readable, Event.query u p rand stale' .arrives]
      (.serving w.file s kv) :=
    ⟨key, stale, chunk, readable, cfg, w.file, _, _, List.mem_cons_self, List.mem_cons_self, htake.symm, hcfg, hs, h1⟩
  change [_] = [_]
  congr 2
  rcases query_started hU hS hmem with h | ⟨opened, s', kv', g1, -, g2⟩
  · exfalso
    obtain ⟨hu, hpl, hr, he⟩ := hU.asked u p rand stale' .arrives hmem
    have hcl := hU.client
    rw [← hsame] at hcl h he
    obtain ⟨e, h⟩ := h
    have hq := C54_ideal_lookup hcl hs (by rw [← suite_eq hcl hs]; exact hU.elemLen) ht h2 stale' u p rand hr he hu hpl hb.1 hb.2
      (fun y hy => by
        have hvar : variants = similarTo := by
          funext q
          exact Res.ok.inj ((hv q).symm.trans (hU.similar q))
        rw [hvar] at hy
        exact hU.tags key stale chunk readable List.mem_cons_self cfg s hcfg hs w.file List.mem_cons_self parts (htake.symm ▸ hp)
          y hy u p rand stale' .arrives hmem)
    have h' : Query E cfg.toConfig (deliver s kv stale' (ascii "/evaluate")) u p rand = .ret NotInBreach none (some e) := h
    rw [hq] at h'
    revert h'
    cases lookup (storedAll _ _ _ variants (credentials parts)) u p with
    | none => intro h'; cases h'
    | some x => intro h'; injection h' with _ _ h'; cases h'
  · cases g1
    exact g2 parts hp

/-- C86: replacing the file changes nothing for a process that runs, whatever it does and is asked from then on until it is
started again; a process started afterwards gives the verdicts of the new file. -/
theorem C86_replaced {similarTo : Bytes → List Bytes} (w : World) (f : Bytes) :
    (∀ es, (∀ key stale chunk readable, .start key stale chunk readable ∉ es) →
      w.run E args ccfg (.replace f :: es) = w.run E args ccfg es) ∧
    ∀ {key : PrivateKey} {stale stale' : Nat → Nat → UInt8} {chunk : Nat → Nat} {readable : Nat} {cfg : ServerConfig} {s : Server}
      {u p : Bytes} {rand : (S : Suite) → ZMod S.q}
      (_ : Usual E args ccfg c similarTo [f] [.start key stale chunk readable, .query u p rand stale' .arrives])
      (_ : f.length ≤ readable) (_ : serverConfig E args.config key stale = some cfg) (_ : args.dumpConfig = false)
      (_ : NewServer E cfg = .ok s) (_ : Spec.tweak s.suite s.privateKey ≠ 0) {parts : List (Option (Bytes × Bytes))}
      (_ : ReadsAs f parts) (_ : ∀ x ∈ credentials parts, x.2.length ≤ 49152),
      w.run E args ccfg ([.replace f, .kill, .start key stale chunk readable] ++
          (List.replicate ((scannedLines chunk f).length + 1) .step ++ [.query u p rand stale' .arrives])) =
        [⟨u, p, verdictOut args.metadata (fileVerdict args.usernameVariant similarTo (credentials parts) u p)⟩] := by
  constructor
  · intro es hes
    change World.run E args ccfg ⟨f, w.proc⟩ es = _
    suffices h : ∀ (w w' : World), w.proc = w'.proc → w.run E args ccfg es = w'.run E args ccfg es from h _ _ rfl
    induction es with
    | nil => intro _ _ _; rfl
    | cons e es ih =>
      intro w w' hw
      have ih' := ih (fun key stale chunk readable h => hes key stale chunk readable (List.mem_cons_of_mem _ h))
      cases e with
      | replace g => exact ih' _ _ hw
      | start key stale chunk readable => exact absurd List.mem_cons_self (hes key stale chunk readable)
      | step =>
        refine ih' _ _ ?_
        change w.proc.step E args = w'.proc.step E args
        rw [hw]
      | kill => exact ih' _ _ rfl
      | query u p rand stale luck =>
        rw [World.run, World.run, hw, ih' w w' hw]
  · intro key stale stale' chunk readable cfg s u p rand hU hread hcfg hd hs ht parts hp hlen
    exact C86_recovers (E := E) (args := args) (ccfg := ccfg) (c := c) ⟨f, w.proc⟩ hU hread hcfg hd hs ht hp hlen

/-! ## A file that only grows -/

/-- Nothing, or lines that all end. -/
def WholeLines (f : Bytes) : Prop := f = [] ∨ ∃ f', f = f' ++ [10]

/-- The file is only replaced by files with lines added at the end. -/
def OnlyGrows : Bytes → List Event → Prop
  | _, [] => True
  | f, .replace g :: es => WholeLines f ∧ f <+: g ∧ OnlyGrows g es
  | f, _ :: es => OnlyGrows f es

/-- `g` is `f`, or `f` with lines added at the end. -/
def Extends (f g : Bytes) : Prop := f = g ∨ WholeLines f ∧ f <+: g

theorem Extends.trans {f g h : Bytes} (h1 : Extends f g) (h2 : Extends g h) : Extends f h := by
  rcases h1 with rfl | ⟨a, b⟩
  · exact h2
  · rcases h2 with rfl | ⟨-, d⟩
    · exact .inr ⟨a, b⟩
    · exact .inr ⟨a, b.trans d⟩

theorem isLines_append {f : Bytes} {ls : List Bytes} (h : IsLines f ls) (hw : WholeLines f) {r : Bytes} {lr : List Bytes}
    (hr : IsLines r lr) : IsLines (f ++ r) (ls ++ lr) := by
  induction h with
  | empty => exact hr
  | last l hne hl =>
    rcases hw with rfl | ⟨f', rfl⟩
    · exact absurd rfl hne
    · exact absurd (List.mem_append_right f' (List.mem_singleton.mpr rfl)) hl
  | line l rest ls hl _ ih =>
    rw [List.append_assoc, List.cons_append, List.cons_append]
    refine .line l (rest ++ r) (ls ++ lr) hl (ih ?_)
    rcases hw with h | ⟨f', h⟩
    · simp at h
    · rcases List.eq_nil_or_concat rest with h' | ⟨rest', x, h'⟩
      · exact .inl h'
      · subst h'
        refine .inr ⟨rest', ?_⟩
        have : (l ++ 10 :: rest') ++ [x] = f' ++ [10] := by
          rw [← h, List.append_assoc, List.cons_append, List.concat_eq_append]
        rw [List.concat_eq_append, (List.append_inj' this rfl).2]

theorem readsAs_extends {f g : Bytes} (h : Extends f g) {parts parts' : List (Option (Bytes × Bytes))} (hf : ReadsAs f parts)
    (hg : ReadsAs g parts') : ∃ more, parts' = parts ++ more := by
  rcases h with rfl | ⟨hw, r, rfl⟩
  · obtain ⟨p, -, hp⟩ := C55_reads f
    exact ⟨[], by rw [List.append_nil, hp _ hf, hp _ hg]⟩
  · obtain ⟨ls, ch, h1, h2, h3⟩ := hf
    obtain ⟨lr, hlr⟩ := IsLines.exists r
    have hl := isLines_append h1 hw hlr
    obtain ⟨q, -, hq⟩ := C55_reads (f ++ r)
    by_cases hall : ∀ l ∈ ls, l.length ≤ 65535
    · obtain ⟨ch', hch'⟩ := forall₂_exists (fun a => ⟨_, dropCR_chomped a⟩) (lr.takeWhile (fun l => l.length ≤ 65535))
      obtain ⟨more, hmore⟩ := forall₂_exists isPart_exists ch'
      refine ⟨more, ?_⟩
      rw [hq _ hg]
      refine (hq _ ⟨ls ++ lr, ch ++ ch', hl, ?_, ?_⟩).symm
      · rw [List.takeWhile_append_of_pos (fun x hx => decide_eq_true (hall x hx))]
        rw [List.takeWhile_eq_self_iff.mpr (fun x hx => decide_eq_true (hall x hx))] at h2
        exact List.rel_append h2 hch'
      · exact List.rel_append h3 hmore
    · refine ⟨[], ?_⟩
      rw [hq _ hg, List.append_nil]
      refine (hq _ ⟨ls ++ lr, ch, hl, ?_, h3⟩).symm
      rw [List.takeWhile_append, if_neg]
      · exact h2
      · intro h
        apply hall
        have : ls.takeWhile (fun l => l.length ≤ 65535) = ls := 
          (List.takeWhile_prefix _).eq_of_length h
        intro l hl'
        have h' := List.takeWhile_eq_self_iff.mp this l hl'
        simpa using h'

theorem onlyGrows_next {w : World} {e : Event} {es : List Event} (h : OnlyGrows w.file (e :: es)) :
    Extends w.file (w.next E args e).file ∧ OnlyGrows (w.next E args e).file es := by
  cases e with
  | replace g => exact ⟨.inr ⟨h.1, h.2.1⟩, h.2.2⟩
  | start key stale chunk readable =>
    unfold World.next
    obtain ⟨file, proc⟩ := w
    cases proc <;> exact ⟨.inl rfl, h⟩
  | step => exact ⟨.inl rfl, h⟩
  | kill => exact ⟨.inl rfl, h⟩
  | query u p rand stale luck => exact ⟨.inl rfl, h⟩

theorem onlyGrows_extends {f g : Bytes} {es : List Event} (h : OnlyGrows f es) (hm : .replace g ∈ es) : Extends f g := by
  induction es generalizing f with
  | nil => cases hm
  | cons e es ih =>
    cases e with
    | replace f' =>
      obtain ⟨h1, h2, h3⟩ := h
      rcases List.mem_cons.mp hm with e | hm
      · cases e; exact .inr ⟨h1, h2⟩
      · exact Extends.trans (.inr ⟨h1, h2⟩) (ih h3 hm)
    | start key stale chunk readable => exact ih h (by simpa using hm)
    | step => exact ih h (by simpa using hm)
    | kill => exact ih h (by simpa using hm)
    | query u p rand stale luck => exact ih h (by simpa using hm)

/-- What the process has opened, if there is one. -/
def openedOf : Proc → Option Bytes
  | .down => none
  | .loading opened _ _ _ => some opened
  | .serving opened _ _ => some opened

theorem step_opened (proc : Proc) : openedOf (proc.step E args) = openedOf proc ∨ openedOf (proc.step E args) = none := by
  match proc with
  | .down => exact .inl rfl
  | .serving opened s kv => exact .inl rfl
  | .loading opened s [] kv => exact .inl rfl
  | .loading opened s (line :: rest) kv =>
    have h := step_line (E := E) (args := args) opened s line rest kv 0 0
    cases hl : loadLines E s args.metadata args.numVariants args.usernameVariant [line] kv 0 0 with
    | crashed q => rw [hl] at h; dsimp only at h; rw [h]; exact .inr rfl
    | done kv' a b => rw [hl] at h; dsimp only at h; rw [h]; exact .inl rfl

theorem boot_opened (file : Bytes) (key : PrivateKey) (stale : Nat → Nat → UInt8) (chunk : Nat → Nat) (readable : Nat) :
    openedOf (bootProc E args file key stale chunk readable) = some (file.take readable) ∨
      openedOf (bootProc E args file key stale chunk readable) = none := by
  unfold bootProc
  cases serverConfig E args.config key stale with
  | none => exact .inr rfl
  | some cfg =>
    dsimp only
    by_cases hd : args.dumpConfig = true
    · rw [if_pos hd]; exact .inr rfl
    · rw [if_neg hd]
      cases newCmdServer E cfg with
      | err e => exact .inr rfl
      | panic q => exact .inr rfl
      | ok s => exact .inl rfl

/-- C86: as long as lines are only added at the end of the file and reading it does not fail, a breach that was told once is told,
word for word, in every later answer about that credential that is not an error, whatever crashes and restarts come in between. -/
theorem C86_grows {similarTo : Bytes → List Bytes} (file : Bytes) (es : List Event)
    (hU : Usual E args ccfg c similarTo (filesOf file es) es) (hg : OnlyGrows file es)
    (hread : ∀ key stale chunk readable, .start key stale chunk readable ∈ es → ∀ f ∈ filesOf file es, f.length ≤ readable) :
    (World.run E args ccfg ⟨file, .down⟩ es).Pairwise (fun earlier later =>
      later.username = earlier.username → later.password = earlier.password →
      ¬ IsFailure earlier.out → earlier.out ≠ .ret NotInBreach none none → ¬ IsFailure later.out → later.out = earlier.out) := by
  suffices h : ∀ (es' : List Event) (w : World), (∀ e ∈ es', e ∈ es) → w.file ∈ filesOf file es →
      Started E args (filesOf file es) es w.proc → OnlyGrows w.file es' →
      (∀ o, openedOf w.proc = some o → Extends o w.file) →
      (w.run E args ccfg es').Pairwise (fun earlier later =>
        later.username = earlier.username → later.password = earlier.password →
        ¬ IsFailure earlier.out → earlier.out ≠ .ret NotInBreach none none → ¬ IsFailure later.out →
        later.out = earlier.out) from
    h es ⟨file, .down⟩ (fun _ h => h) List.mem_cons_self trivial hg (by intro o ho; cases ho)
  intro es'
  induction es' with
  | nil => intro w _ _ _ _ _; exact List.Pairwise.nil
  | cons e es' ih =>
    intro w he hw hS hgr hopen
    have h' := started_next hS hw e (he e List.mem_cons_self)
      (fun f hf => mem_filesOf (hf ▸ he e List.mem_cons_self))
    obtain ⟨hext, hgr'⟩ := onlyGrows_next (E := E) (args := args) hgr
    have he' : ∀ e ∈ es', e ∈ es := fun e h => he e (List.mem_cons_of_mem _ h)
    have hopen' : ∀ o, openedOf (w.next E args e).proc = some o → Extends o (w.next E args e).file := by
      intro o ho
      cases e with
      | replace g => exact (hopen o ho).trans hext
      | start key stale chunk readable =>
        obtain ⟨f, proc⟩ := w
        unfold World.next at ho ⊢
        cases proc with
        | down =>
          dsimp only at ho ⊢
          rcases boot_opened (E := E) (args := args) f key stale chunk readable with h | h
          · rw [h] at ho
            cases ho
            rw [List.take_of_length_le (hread _ _ _ _ (he _ List.mem_cons_self) f hw)]
            exact .inl rfl
          · rw [h] at ho; cases ho
        | loading opened s rest kv => exact hopen o ho
        | serving opened s kv => exact hopen o ho
      | step =>
        have ho' : openedOf (w.proc.step E args) = some o := ho
        rcases step_opened (E := E) (args := args) w.proc with h | h
        · exact hopen o (h ▸ ho')
        · rw [h] at ho'; cases ho'
      | kill => cases ho
      | query u p rand stale luck => exact hopen o ho
    have ih' := ih (w.next E args e) he' h'.2 h'.1 hgr' hopen'
    cases e with
    | replace f => exact ih'
    | start key stale chunk readable => exact ih'
    | step => exact ih'
    | kill => exact ih'
    | query u p rand stale luck =>
      rw [World.run]
      refine List.Pairwise.cons ?_ ih'
      intro y hy hyu hyp hx1 hx2 hy1
      dsimp only at hyu hyp hx1 hx2
      rcases query_started hU hS (he _ List.mem_cons_self) with h | ⟨o, s, kv, h1, -, h2⟩
      · exact absurd h hx1
      · -- the files that come later
        have hS' : Started E args (o :: w.file :: es'.filterMap (fun e => match e with | .replace f => some f | _ => none)) es w.proc := by
          rw [h1] at hS ⊢
          obtain ⟨key, stale', chunk, readable, cfg, f, a, b, k1, k2, k3, k4⟩ := hS
          refine ⟨key, stale', chunk, readable, cfg, o, a, b, k1, List.mem_cons_self, ?_, k4⟩
          rw [k3, List.take_take, Nat.min_self]
        have ho : Extends o w.file := hopen o (by rw [h1]; rfl)
        have hom : o ∈ filesOf file es := by
          rw [h1] at hS
          obtain ⟨key, stale', chunk, readable, cfg, f, a, b, k1, k2, k3, k4⟩ := hS
          rw [k3, List.take_of_length_le (hread _ _ _ _ k1 f k2)]
          exact k2
        have hrep : ∀ f, f ∈ es'.filterMap (fun e => match e with | .replace f => some f | _ => none) → .replace f ∈ es' := by
          intro f hf
          obtain ⟨e, h1, h2⟩ := List.mem_filterMap.mp hf
          cases e with
          | replace g => cases h2; exact h1
          | start key stale chunk readable => cases h2
          | step => cases h2
          | kill => cases h2
          | query u p rand stale luck => cases h2
        have hfiles : ∀ f ∈ o :: w.file :: es'.filterMap (fun e => match e with | .replace f => some f | _ => none),
            f ∈ filesOf file es ∧ Extends o f := by
          intro f hf
          rcases List.mem_cons.mp hf with rfl | hf
          · exact ⟨hom, .inl rfl⟩
          · rcases List.mem_cons.mp hf with rfl | hf
            · exact ⟨hw, ho⟩
            · have := hrep f hf
              exact ⟨mem_filesOf (he' _ this), ho.trans (onlyGrows_extends hgr' this)⟩
        have hrun := run_started hU (fun f hf => (hfiles f hf).1) es' w hS' (List.mem_cons_of_mem _ List.mem_cons_self) he'
          (fun f hf => List.mem_cons_of_mem _ (List.mem_cons_of_mem _ (List.mem_filterMap.mpr ⟨_, hf, rfl⟩))) y hy
        rcases hrun with h | ⟨f, hf, key, stale', chunk, readable, k1, k2⟩
        · exact absurd h hy1
        · obtain ⟨hf1, hf2⟩ := hfiles f hf
          rw [List.take_of_length_le (hread _ _ _ _ k1 f hf1)] at k2
          obtain ⟨po, hpo, -⟩ := C55_reads o
          obtain ⟨pf, hpf, -⟩ := C55_reads f
          obtain ⟨more, rfl⟩ := readsAs_extends hf2 hpo hpf
          have e1 := h2 po hpo
          have e2 := k2 _ hpf
          rw [e1, e2, hyu, hyp]
          rw [e1] at hx2
          have hcr : credentials (po ++ more) = credentials po ++ credentials more := by
            unfold credentials; rw [List.filterMap_append]
          rw [hcr, C83_append, if_neg]
          intro hcl
          rw [hcl] at hx2
          exact hx2 rfl

/-! ## Read errors -/

/-- C86: a read error is silent. If a process is started while reading fails after `readable` bytes, and is left alone, it serves, and
gives the verdicts of the bytes before the error; neither it nor a client learns that there are more. (`C86_recovers` for a disk that
fails.) -/
theorem C86_cut {similarTo : Bytes → List Bytes} (w : World) {key : PrivateKey} {stale stale' : Nat → Nat → UInt8}
    {chunk : Nat → Nat} {readable : Nat} {cfg : ServerConfig} {s : Server} {u p : Bytes} {rand : (S : Suite) → ZMod S.q}
    (hU : Usual E args ccfg c similarTo [w.file.take readable]
      [.start key stale chunk readable, .query u p rand stale' .arrives])
    (hcfg : serverConfig E args.config key stale = some cfg) (hd : args.dumpConfig = false) (hs : NewServer E cfg = .ok s)
    (ht : Spec.tweak s.suite s.privateKey ≠ 0) {parts : List (Option (Bytes × Bytes))}
    (hp : ReadsAs (w.file.take readable) parts) (hlen : ∀ x ∈ credentials parts, x.2.length ≤ 49152) :
    w.run E args ccfg ([.kill, .start key stale chunk readable] ++
        (List.replicate ((scannedLines chunk (w.file.take readable)).length + 1) .step ++ [.query u p rand stale' .arrives])) =
      [⟨u, p, verdictOut args.metadata
        (fileVerdict args.usernameVariant similarTo (credentials parts) u p)⟩] := by
  have h := C86_recovers (E := E) (args := args) (ccfg := ccfg) (c := c) ⟨w.file.take readable, w.proc⟩ hU
    (by rw [List.length_take]; exact Nat.min_le_left _ _) hcfg hd hs ht hp hlen
  have hboot : bootProc E args (w.file.take readable) key stale chunk readable = bootProc E args w.file key stale chunk readable := by
    unfold bootProc
    rw [List.take_take, Nat.min_self]
  change World.run E args ccfg ⟨w.file.take readable, bootProc E args (w.file.take readable) key stale chunk readable⟩
    (List.replicate ((scannedLines chunk (w.file.take readable)).length + 1) .step ++ [.query u p rand stale' .arrives]) = _ at h
  change World.run E args ccfg ⟨w.file, bootProc E args w.file key stale chunk readable⟩
    (List.replicate ((scannedLines chunk (w.file.take readable)).length + 1) .step ++ [.query u p rand stale' .arrives]) = _
  rw [run_steps] at h ⊢
  rw [hboot] at h
  exact h

/-! ## Concrete cases -/

/-- The files of the examples, and a second key. -/
def oldFile : Bytes := ascii "user:password1\n"
def newFile : Bytes := ascii "user:password1\nuser:password\n"
def server8 : Server := { Example.server with privateKey := ⟨8⟩ }
def bootExample : BootArgs := ⟨none, false, ascii "A", 0, false⟩

theorem reads_old : ReadsAs oldFile [some (ascii "user", ascii "password1")] := by
  refine ⟨[ascii "user:password1"], [ascii "user:password1"], .line (ascii "user:password1") [] _ (by decide) .empty, ?_,
    .cons ⟨rfl, by decide⟩ .nil⟩
  have : ([ascii "user:password1"] : List Bytes).takeWhile (fun l => l.length ≤ 65535) = [ascii "user:password1"] := by decide
  rw [this]
  exact .cons (dropCR_chomped _) .nil

theorem reads_new : ReadsAs newFile [some (ascii "user", ascii "password1"), some (ascii "user", ascii "password")] := by
  refine ⟨[ascii "user:password1", ascii "user:password"], [ascii "user:password1", ascii "user:password"],
    .line (ascii "user:password1") (ascii "user:password\n") _ (by decide) (.line (ascii "user:password") [] _ (by decide) .empty), ?_,
    .cons ⟨rfl, by decide⟩ (.cons ⟨rfl, by decide⟩ .nil)⟩
  have : ([ascii "user:password1", ascii "user:password"] : List Bytes).takeWhile (fun l => l.length ≤ 65535) =
    [ascii "user:password1", ascii "user:password"] := by decide
  rw [this]
  exact .cons (dropCR_chomped _) (.cons (dropCR_chomped _) .nil)

/-- The beginning of the file if reading fails after nine bytes. -/
theorem reads_cut : ReadsAs (oldFile.take 9) [some (ascii "user", ascii "pass")] := by
  have e : oldFile.take 9 = ascii "user:pass" := by decide
  rw [e]
  refine ⟨[ascii "user:pass"], [ascii "user:pass"], .last _ (by decide) (by decide), ?_, .cons ⟨rfl, by decide⟩ .nil⟩
  have : ([ascii "user:pass"] : List Bytes).takeWhile (fun l => l.length ≤ 65535) = [ascii "user:pass"] := by decide
  rw [this]
  exact .cons (dropCR_chomped _) .nil

theorem no_variants (p : Bytes) : mutate dasRules p 0 = .ok [] := by
  obtain ⟨vs, hv⟩ := (C37_panics_iff p 0).2.mpr ⟨by decide, by decide⟩
  have h := (C33_distinct p 0 vs hv).1
  have : vs = [] := List.length_eq_zero_iff.mp (by omega)
  rw [hv, this]

theorem tags8 : keyTag Example.ext.sha256 (entryKey Example.ext Example.cfg server8 (ascii "user") (ascii "password1")) ≠
    keyTag Example.ext.sha256 (entryKey Example.ext Example.cfg server8 (ascii "user") (ascii "password")) := by
  decide +kernel

theorem tags_cut : keyTag Example.ext.sha256 (entryKey Example.ext Example.cfg Example.server (ascii "user") (ascii "pass")) ≠
    keyTag Example.ext.sha256 (entryKey Example.ext Example.cfg Example.server (ascii "user") (ascii "password1")) := by
  decide +kernel

theorem tweak8 : Spec.tweak server8.suite server8.privateKey ≠ 0 := by
  show Spec.tweak Example.toySuite ⟨8⟩ ≠ 0
  decide +kernel

theorem no_collision8 (m : Bytes) (f : UInt8) :
    ¬ TagCollision Example.ext server8 ⟨ascii "user", ascii "password1", f, m⟩ (ascii "user") (ascii "password") := by
  rintro ⟨-, -, k, k', h1, h2, h3⟩
  have hs : NewServer Example.ext (DefaultServerConfig ⟨8⟩) = .ok server8 := rfl
  have hu : (ascii "user").length ≤ 65536 := by decide
  dsimp only at h1
  rw [deriveKey_ok hs _ _ hu (by decide) tweak8] at h1
  rw [deriveKey_ok hs _ _ hu (by decide) tweak8] at h2
  injection h1 with h1
  injection h2 with h2
  apply tags8
  unfold entryKey
  change keyTag Example.ext.sha256 (Spec.oprf server8.suite server8.privateKey
      (Spec.oprfInput Example.ext (DefaultServerConfig ⟨8⟩).slowHasherID (ascii "user") (ascii "password1"))) =
    keyTag Example.ext.sha256 (Spec.oprf server8.suite server8.privateKey
      (Spec.oprfInput Example.ext (DefaultServerConfig ⟨8⟩).slowHasherID (ascii "user") (ascii "password")))
  rw [h1, h2, h3]

/-- The assumptions hold for all histories with these two files, two keys and a query for `user:password`. -/
theorem example_usual {es : List Event} {files : List Bytes} (hf : ∀ f ∈ files, f = oldFile ∨ f = newFile)
    (h1 : ∀ key stale chunk readable, .start key stale chunk readable ∈ es → (key = ⟨7⟩ ∨ key = ⟨8⟩) ∧ 100 ≤ readable)
    (h2 : ∀ u p rand stale luck, .query u p rand stale luck ∈ es →
      u = ascii "user" ∧ p = ascii "password" ∧ rand Example.client.suite ≠ 0) :
    Usual Example.ext bootExample Example.cfg.toConfig Example.client (fun _ => []) files es where
  client := Example.newClient_eq
  same := by
    intro key stale chunk readable h cfg hcfg
    cases hcfg
    rfl
  bits := by decide
  metadata := by decide
  variants := by decide
  similar := no_variants
  elemLen := rfl
  asked := by
    intro u p rand stale luck h
    obtain ⟨rfl, rfl, hr⟩ := h2 u p rand stale luck h
    exact ⟨by decide, by decide, hr, toy_hash_ne _⟩
  tags := by
    intro key stale chunk readable h cfg s hcfg hs f hff parts hp y hy u p rand stale' luck hq
    obtain ⟨rfl, rfl, -⟩ := h2 u p rand stale' luck hq
    obtain ⟨hkey, hread⟩ := h1 _ _ _ _ h
    have hy' : y = ⟨ascii "user", ascii "password1", 1, ascii "A"⟩ ∨ y = ⟨ascii "user", ascii "password", 1, ascii "A"⟩ := by
      rcases hf f hff with rfl | rfl
      · rw [List.take_of_length_le (Nat.le_trans (by decide) hread)] at hp
        obtain ⟨q, -, hq⟩ := C55_reads oldFile
        rw [hq _ hp, ← hq _ reads_old] at hy
        exact .inl (List.mem_singleton.mp hy)
      · rw [List.take_of_length_le (Nat.le_trans (by decide) hread)] at hp
        obtain ⟨q, -, hq⟩ := C55_reads newFile
        rw [hq _ hp, ← hq _ reads_new] at hy
        rcases List.mem_cons.mp hy with h | h
        · exact .inl h
        · exact .inr (List.mem_singleton.mp h)
    rcases hkey with rfl | rfl
    · have e : s = Example.server := by
        cases hcfg
        exact Res.ok.inj (hs.symm.trans Example.newServer_eq)
      subst e
      rcases hy' with rfl | rfl
      · exact example_no_collision _ _ _ _ (by decide) (by decide) example_tags.1
      · exact fun h => h.1 ⟨rfl, rfl⟩
    · have e : s = server8 := by
        cases hcfg
        exact Res.ok.inj (hs.symm.trans rfl)
      subst e
      rcases hy' with rfl | rfl
      · exact no_collision8 _ _
      · exact fun h => h.1 ⟨rfl, rfl⟩

/-- Asked before the server runs, while it reads the file, when it serves, after the file was replaced, after a crash, and after a
restart with another key. -/
def exampleEvents (stale : Nat → Nat → UInt8) (chunk : Nat → Nat) (rand : (S : Suite) → ZMod S.q) : List Event :=
  let ask := Event.query (ascii "user") (ascii "password") rand stale .arrives
  [ask, .start ⟨7⟩ stale chunk 100, .step, ask, .step, ask, .replace newFile, ask, .kill, ask, .start ⟨8⟩ stale chunk 200, .step, .step,
    ask, .step, ask]

theorem example_events (stale : Nat → Nat → UInt8) (chunk : Nat → Nat) (rand : (S : Suite) → ZMod S.q)
    (hr : rand Example.client.suite ≠ 0) (files : List Bytes) (hf : ∀ f ∈ files, f = oldFile ∨ f = newFile) :
    Usual Example.ext bootExample Example.cfg.toConfig Example.client (fun _ => []) files (exampleEvents stale chunk rand) := by
  refine example_usual hf ?_ ?_
  · intro key stale' chunk' readable h
    simp only [exampleEvents, List.mem_cons, List.not_mem_nil, or_false, reduceCtorEq, false_or, Event.start.injEq] at h
    rcases h with ⟨rfl, -, -, rfl⟩ | ⟨rfl, -, -, rfl⟩
    · exact ⟨.inl rfl, by decide⟩
    · exact ⟨.inr rfl, by decide⟩
  · intro u p rand' stale' luck h
    have : Event.query u p rand' stale' luck = .query (ascii "user") (ascii "password") rand stale .arrives := by
      simpa [exampleEvents] using h
    cases this
    exact ⟨rfl, rfl, hr⟩

/-- C86_answers and C86_grows: their assumptions hold of this history. -/
example (stale : Nat → Nat → UInt8) (chunk : Nat → Nat) (rand : (S : Suite) → ZMod S.q) (hr : rand Example.client.suite ≠ 0) :
    Usual Example.ext bootExample Example.cfg.toConfig Example.client (fun _ => [])
      (filesOf oldFile (exampleEvents stale chunk rand)) (exampleEvents stale chunk rand) ∧
    OnlyGrows oldFile (exampleEvents stale chunk rand) ∧
    ∀ key stale' chunk' readable, .start key stale' chunk' readable ∈ exampleEvents stale chunk rand →
      ∀ f ∈ filesOf oldFile (exampleEvents stale chunk rand), f.length ≤ readable := by
  have hf : filesOf oldFile (exampleEvents stale chunk rand) = [oldFile, newFile] := rfl
  rw [hf]
  have hfs : ∀ f ∈ [oldFile, newFile], f = oldFile ∨ f = newFile := by
    intro f h
    simpa using h
  have hU := example_events stale chunk rand hr _ hfs
  refine ⟨hU, ⟨.inr ⟨ascii "user:password1", rfl⟩, ⟨ascii "user:password\n", rfl⟩, trivial⟩, ?_⟩
  intro key stale' chunk' readable h f hff
  simp only [exampleEvents, List.mem_cons, List.not_mem_nil, or_false, reduceCtorEq, false_or, Event.start.injEq] at h
  have h100 : 100 ≤ readable := by
    rcases h with ⟨-, -, -, rfl⟩ | ⟨-, -, -, rfl⟩ <;> decide
  rcases hfs f hff with rfl | rfl
  · exact Nat.le_trans (by decide) h100
  · exact Nat.le_trans (by decide) h100

/-- C86_restarts: two processes with different keys over the same file. -/
example (stale : Nat → Nat → UInt8) (chunk : Nat → Nat) (rand : (S : Suite) → ZMod S.q) (hr : rand Example.client.suite ≠ 0) :
    ∀ x ∈ World.run Example.ext bootExample Example.cfg.toConfig ⟨newFile, .down⟩
        [.start ⟨7⟩ stale chunk 100, .step, .step, .step, .query (ascii "user") (ascii "password") rand stale .arrives, .kill,
          .start ⟨8⟩ stale chunk 100, .step, .query (ascii "user") (ascii "password") rand stale .arrives, .step, .step,
          .query (ascii "user") (ascii "password") rand stale .cut, .query (ascii "user") (ascii "password") rand stale .arrives],
      IsFailure x.out ∨ x.out = verdictOut (ascii "A") (fileVerdict false (fun _ => [])
        [(ascii "user", ascii "password1"), (ascii "user", ascii "password")] x.username x.password) := by
  refine C86_restarts newFile _ (example_usual (fun f h => .inr (List.mem_singleton.mp h)) ?_ ?_) ?_ ?_ reads_new
  · intro key s c' readable h
    simp only [List.mem_cons, List.not_mem_nil, or_false, reduceCtorEq, false_or, Event.start.injEq] at h
    rcases h with ⟨rfl, -, -, rfl⟩ | ⟨rfl, -, -, rfl⟩
    · exact ⟨.inl rfl, by decide⟩
    · exact ⟨.inr rfl, by decide⟩
  · intro u p rand' s luck h
    simp only [List.mem_cons, List.not_mem_nil, or_false, reduceCtorEq, false_or, Event.query.injEq] at h
    rcases h with ⟨rfl, rfl, rfl, -⟩ | ⟨rfl, rfl, rfl, -⟩ | ⟨rfl, rfl, rfl, -⟩ | ⟨rfl, rfl, rfl, -⟩ <;> exact ⟨rfl, rfl, hr⟩
  · intro f h
    simp only [List.mem_cons, List.not_mem_nil, or_false, reduceCtorEq] at h
  · intro key s c' readable h
    simp only [List.mem_cons, List.not_mem_nil, or_false, reduceCtorEq, false_or, Event.start.injEq] at h
    rcases h with ⟨-, -, -, rfl⟩ | ⟨-, -, -, rfl⟩ <;> decide

/-- C86_recovers: after any history that ends with the new file in place, the server started with the key 8 tells that the password is
in the breach. -/
theorem C86_example (proc : Proc) (stale stale' : Nat → Nat → UInt8) (chunk : Nat → Nat) (rand : (S : Suite) → ZMod S.q)
    (hr : rand Example.client.suite ≠ 0) :
    World.run Example.ext bootExample Example.cfg.toConfig ⟨newFile, proc⟩ ([.kill, .start ⟨8⟩ stale chunk 100] ++
        (List.replicate ((scannedLines chunk newFile).length + 1) .step ++
          [.query (ascii "user") (ascii "password") rand stale' .arrives])) =
      [⟨ascii "user", ascii "password", .ret InBreach (some (ascii "A")) none⟩] := by
  have hU : Usual Example.ext bootExample Example.cfg.toConfig Example.client (fun _ => []) [newFile]
      [.start ⟨8⟩ stale chunk 100, .query (ascii "user") (ascii "password") rand stale' .arrives] := by
    refine example_usual (fun f h => .inr (List.mem_singleton.mp h)) ?_ ?_
    · intro key s c' readable h
      simp only [List.mem_cons, List.not_mem_nil, or_false, reduceCtorEq, Event.start.injEq] at h
      obtain ⟨rfl, -, -, rfl⟩ := h
      exact ⟨.inr rfl, by decide⟩
    · intro u p rand' s luck h
      simp only [List.mem_cons, List.not_mem_nil, or_false, reduceCtorEq, false_or, Event.query.injEq] at h
      obtain ⟨rfl, rfl, rfl, -, -⟩ := h
      exact ⟨rfl, rfl, hr⟩
  rw [C86_recovers ⟨newFile, proc⟩ hU (show newFile.length ≤ 100 by decide) rfl rfl (s := server8) rfl tweak8 reads_new (by
    intro x hx
    have : x = (ascii "user", ascii "password1") ∨ x = (ascii "user", ascii "password") := by simpa [credentials] using hx
    rcases this with rfl | rfl <;> decide)]
  rfl

/-- C86_cut: the file has only the line `user:password1`; reading it fails after nine bytes: `user:password1` is not in the breach. -/
theorem C86_cut_example (proc : Proc) (stale stale' : Nat → Nat → UInt8) (chunk : Nat → Nat) (rand : (S : Suite) → ZMod S.q)
    (hr : rand Example.client.suite ≠ 0) :
    World.run Example.ext bootExample Example.cfg.toConfig ⟨oldFile, proc⟩ ([.kill, .start ⟨7⟩ stale chunk 9] ++
        (List.replicate ((scannedLines chunk (oldFile.take 9)).length + 1) .step ++
          [.query (ascii "user") (ascii "password1") rand stale' .arrives])) =
      [⟨ascii "user", ascii "password1", .ret NotInBreach none none⟩] := by
  have hU : Usual Example.ext bootExample Example.cfg.toConfig Example.client (fun _ => []) [oldFile.take 9]
      [.start ⟨7⟩ stale chunk 9, .query (ascii "user") (ascii "password1") rand stale' .arrives] := 
    { client := Example.newClient_eq
      same := by
        intro key stale chunk readable h cfg hcfg
        cases hcfg
        rfl
      bits := by decide
      metadata := by decide
      variants := by decide
      similar := no_variants
      elemLen := rfl
      asked := by
        intro u p rand' s luck h
        simp only [List.mem_cons, List.not_mem_nil, or_false, reduceCtorEq, false_or, Event.query.injEq] at h
        obtain ⟨rfl, rfl, rfl, -, -⟩ := h
        exact ⟨by decide, by decide, hr, toy_hash_ne _⟩
      tags := by
        intro key s c' readable h cfg sv hcfg hs f hff parts hp y hy u p rand' st luck hq
        simp only [List.mem_cons, List.not_mem_nil, or_false, reduceCtorEq, false_or, Event.query.injEq] at hq
        obtain ⟨rfl, rfl, -⟩ := hq
        simp only [List.mem_cons, List.not_mem_nil, or_false, reduceCtorEq, Event.start.injEq] at h
        obtain ⟨rfl, -, -, rfl⟩ := h
        have e : sv = Example.server := by
          cases hcfg
          exact Res.ok.inj (hs.symm.trans Example.newServer_eq)
        subst e
        rw [List.mem_singleton.mp hff, List.take_take, Nat.min_self] at hp
        obtain ⟨q, -, hq⟩ := C55_reads (oldFile.take 9)
        rw [hq _ hp, ← hq _ reads_cut] at hy
        rw [List.mem_singleton.mp hy]
        exact example_no_collision _ _ _ _ (by decide) (by decide) tags_cut }
  rw [C86_cut ⟨oldFile, proc⟩ hU rfl rfl Example.newServer_eq example_tweak reads_cut (by
    intro x hx
    have : x = (ascii "user", ascii "pass") := by simpa [credentials] using hx
    subst this; decide)]
  rfl

end Migp.Props
