import Verif.Model.Log
import Verif.Spec.Log
import Verif.Props.Main
import Verif.Props.Http
import Verif.Props.Programs
import Verif.Props.Witness2
/-!
# C81: what the server program writes to its log
-/
namespace Migp.Props
open Json Bufio Http Spec

section
variable {E : Ext} {cfg : ServerConfig} {s : Server}

theorem loadLinesL_out (E : Ext) (s : Server) (md : Bytes) (n : Int) (uv : Bool) (lines : List Bytes) (kv : KV) (k f : Nat) :
    (loadLinesL E s md n uv lines kv k f).2 = loadLines E s md n uv lines kv k f := by
  induction lines generalizing kv k f with
  | nil => rfl
  | cons line lines ih =>
    unfold loadLinesL loadLines
    generalize splitN2 line 58 = parts
    rcases parts with _ | ⟨u, _ | ⟨p, _ | ⟨x, rest⟩⟩⟩
    · exact ih ..
    · exact ih ..
    · dsimp only
      generalize insert E s u p md n uv kv = r
      obtain ⟨kv', r⟩ := r
      cases r with
      | panic p => rfl
      | err e => exact ih ..
      | ok u => exact ih ..
    · exact ih ..

/-- C81: the functions with their messages give the same results as the functions without. -/
theorem C81_same_results (E : Ext) (args : ServerArgs) (key : PrivateKey) (stale : Nat → Nat → UInt8) (chunk : Nat → Nat)
    (s : Server) (kv : KV) (body : Option Bytes) :
    (serverMainL E args key stale chunk).2 = serverMain E args key stale chunk ∧
    (handleEvaluateL s kv stale body).2 = handleEvaluate s kv stale body := by
  constructor
  · unfold serverMainL serverMain
    cases serverConfig E args.config key stale with
    | none => rfl
    | some cfg =>
      dsimp only
      cases args.dumpConfig with
      | true => rfl
      | false =>
        rw [if_neg (by simp), if_neg (by simp)]
        cases newCmdServer E cfg with
        | err e => rfl
        | panic p => rfl
        | ok s =>
          dsimp only
          cases args.infile with
          | none => rfl
          | some file =>
            dsimp only
            rw [loadLinesL_out]
            generalize loadLines E s.migpServer args.metadata args.numVariants args.usernameVariant (scannedLines chunk file)
              s.kv 0 0 = r
            cases r <;> rfl
  · unfold handleEvaluateL handleEvaluate
    cases body with
    | none => rfl
    | some body =>
      dsimp only
      cases s.handleRequest (ClientRequest.unmarshalJSON stale body ClientRequest.zero).1 kv.get with
      | panic p => rfl
      | err e => rfl
      | ok r =>
        dsimp only
        cases r.marshalBinary <;> rfl

/-! ## The progress of an import -/

/-- `progress` from given counters on. -/
def progressFrom : (k f : Nat) → List Bool → List (Nat × Nat)
  | _, _, [] => []
  | k, f, true :: l => (k + 1, f) :: progressFrom (k + 1) f l
  | k, f, false :: l => progressFrom k (f + 1) l

theorem progressFrom_eq (l : List Bool) (k f : Nat) :
    progressFrom k f l = (progress l).map fun x => (k + x.1, f + x.2) := by
  induction l generalizing k f with
  | nil => rfl
  | cons b l ih =>
    have hp : progress (b :: l) = (if b then [(1, 0)] else []) ++
        (progress l).map fun x => ((if b then 1 else 0) + x.1, (if b then 0 else 1) + x.2) := by
      unfold progress
      rw [List.length_cons, List.range_succ_eq_map, List.filterMap_cons]
      have e : ((List.range l.length).map Nat.succ).filterMap (fun i => if (b :: l)[i]? = some true then
            some (((b :: l).take (i + 1)).count true, ((b :: l).take i).count false) else none) =
          (List.filterMap (fun i => if l[i]? = some true then some ((l.take (i + 1)).count true, (l.take i).count false) else none)
            (List.range l.length)).map fun x => ((if b then 1 else 0) + x.1, (if b then 0 else 1) + x.2) := by
        rw [List.filterMap_map, List.map_filterMap]
        congr 1
        funext i
        simp only [Function.comp, Nat.succ_eq_add_one, List.getElem?_cons_succ, List.take_succ_cons, List.count_cons]
        split
        · cases b <;> simp [Nat.add_comm]
        · rfl
      rw [e]
      cases b <;> simp
    rw [hp]
    cases b with
    | true =>
      rw [progressFrom, ih]
      simp [List.map_map, Function.comp_def, Nat.add_assoc]
    | false =>
      rw [progressFrom, ih]
      simp [List.map_map, Function.comp_def, Nat.add_assoc]

theorem loadLinesL_cons_some {line u p : Bytes} (ho : IsPart line (some (u, p))) (md : Bytes) (n : Int) (uv : Bool)
    (lines : List Bytes) (kv : KV) (a b : Nat) :
    loadLinesL E s md n uv (line :: lines) kv a b =
      match insertRecord E s ⟨u, p, md, n, uv⟩ kv with
      | (_, .panic p) => ([], .crashed p)
      | (kv, .err _) => loadLinesL E s md n uv lines kv a (b + 1)
      | (kv, .ok ()) =>
        (.text (progressText false (a + 1) b) :: (loadLinesL E s md n uv lines kv (a + 1) b).1,
          (loadLinesL E s md n uv lines kv (a + 1) b).2) := by
  rw [loadLinesL, isPart_some_iff.mp ho]
  rfl

/-- What the import logs, by outcomes of its lines. -/
theorem loadLinesL_log (hs : NewServer E cfg = .ok s) (md : Bytes) (n : Int) (uv : Bool) (good : Bool)
    (hgood : ∀ (u p : Bytes) (kv kv' : KV) (r : Res Unit), insertRecord E s ⟨u, p, md, n, uv⟩ kv = (kv', r) →
      ¬ r.IsPanic → (r.IsOk ↔ good = true)) (lines : List Bytes)
    (parts : List (Option (Bytes × Bytes))) (hp : List.Forall₂ IsPart lines parts) (kv kv' : KV) (a b a' b' : Nat)
    (hdone : loadLines E s md n uv lines kv a b = .done kv' a' b') :
    (loadLinesL E s md n uv lines kv a b).1 =
      (progressFrom a b (parts.map fun o => o.isSome && good)).map fun x => .text (progressText false x.1 x.2) := by
  induction hp generalizing kv a b with
  | nil => rfl
  | @cons line o lines parts ho _ ih =>
    cases o with
    | none =>
      rw [loadLines_cons_none ho] at hdone
      have e : loadLinesL E s md n uv (line :: lines) kv a b = loadLinesL E s md n uv lines kv a (b + 1) := by
        rw [loadLinesL, isPart_none_iff.mp ho]
      rw [e, ih kv a (b + 1) hdone]
      rfl
    | some x =>
      obtain ⟨u, p⟩ := x
      rw [loadLines_cons_some ho] at hdone
      rw [loadLinesL_cons_some ho]
      rcases hi : insertRecord E s ⟨u, p, md, n, uv⟩ kv with ⟨kv1, w | e | q⟩
      · rw [hi] at hdone
        have hg := (hgood u p kv kv1 _ hi (by simp)).mp ⟨w, rfl⟩
        dsimp only at hdone ⊢
        rw [ih kv1 (a + 1) b hdone, hg]
        rfl
      · rw [hi] at hdone
        have hg : good = false := by
          cases good with
          | false => rfl
          | true =>
            have := (hgood u p kv kv1 _ hi (by simp)).mpr rfl
            simp at this
        dsimp only at hdone ⊢
        rw [ih kv1 a (b + 1) hdone, hg]
        rfl
      · rw [hi] at hdone
        cases hdone

/-- Also when it crashes, it has logged the beginning of that. -/
theorem loadLinesL_prefix (md : Bytes) (n : Int) (uv : Bool) (good : Bool)
    (hgood : ∀ (u p : Bytes) (kv kv' : KV) (r : Res Unit), insertRecord E s ⟨u, p, md, n, uv⟩ kv = (kv', r) →
      ¬ r.IsPanic → (r.IsOk ↔ good = true)) (lines : List Bytes)
    (parts : List (Option (Bytes × Bytes))) (hp : List.Forall₂ IsPart lines parts) (kv : KV) (a b : Nat) :
    (loadLinesL E s md n uv lines kv a b).1 <+:
      (progressFrom a b (parts.map fun o => o.isSome && good)).map fun x => .text (progressText false x.1 x.2) := by
  induction hp generalizing kv a b with
  | nil => exact List.prefix_refl _
  | @cons line o lines parts ho _ ih =>
    cases o with
    | none =>
      have e : loadLinesL E s md n uv (line :: lines) kv a b = loadLinesL E s md n uv lines kv a (b + 1) := by
        rw [loadLinesL, isPart_none_iff.mp ho]
      rw [e]
      exact ih kv a (b + 1)
    | some x =>
      obtain ⟨u, p⟩ := x
      rw [loadLinesL_cons_some ho]
      rcases hi : insertRecord E s ⟨u, p, md, n, uv⟩ kv with ⟨kv1, w | e | q⟩
      · have hg := (hgood u p kv kv1 _ hi (by simp)).mp ⟨w, rfl⟩
        have := ih kv1 (a + 1) b
        rw [hg] at this ⊢
        exact List.prefix_cons_inj _ |>.mpr this
      · have hg : good = false := by
          cases good with
          | false => rfl
          | true =>
            have := (hgood u p kv kv1 _ hi (by simp)).mpr rfl
            simp at this
        have := ih kv1 a (b + 1)
        rw [hg] at this ⊢
        exact this
      · exact List.nil_prefix

/-- Which inserts succeed. -/
theorem insert_good (hs : NewServer E cfg = .ok s) (md : Bytes) (n : Int) (uv : Bool) (u p : Bytes) (kv kv' : KV) (r : Res Unit)
    (hi : insertRecord E s ⟨u, p, md, n, uv⟩ kv = (kv', r)) (hr : ¬ r.IsPanic) :
    r.IsOk ↔ decide (Spec.tweak s.suite s.privateKey ≠ 0 ∧ md.length ≤ 8160) = true := by
  have ho := insertRecord_outcome hs ⟨u, p, md, n, uv⟩ kv
  rw [hi] at ho
  rw [decide_eq_true_eq]
  cases ho with
  | done id vs hid hst => exact ⟨fun _ => ⟨hst.ht, hst.hm⟩, fun _ => ⟨(), rfl⟩⟩
  | refused e _ _ _ _ hc =>
    constructor
    · rintro ⟨x, h⟩; cases h
    · rintro ⟨h1, h2⟩
      rcases hc with hc | hc
      · exact absurd hc h1
      · dsimp only at hc; omega
  | panicked q _ => exact absurd ⟨q, rfl⟩ hr
  | crashed q => exact absurd ⟨q, rfl⟩ hr

/-- Which lines of a file are imported: those with a colon, or none at all. -/
def outcomes (s : Server) (metadata : Bytes) (parts : List (Option (Bytes × Bytes))) : List Bool :=
  parts.map fun o => o.isSome && decide (Spec.tweak s.suite s.privateKey ≠ 0 ∧ metadata.length ≤ 8160)

/-- The first message, the last one, and those between them. -/
def firstMessage : LogLine := .text (ascii "Encrypting breach entries: 0 successes, 0 failures")
def startMessage : LogLine := .text (ascii "\nStarting MIGP server")
def progressMessage (x : Nat × Nat) : LogLine :=
  .text (ascii "\rEncrypting breach entries: " ++ natDec x.1 ++ ascii " successes, " ++ natDec x.2 ++ ascii " failures")

theorem firstMessage_eq : LogLine.text (progressText true 0 0) = firstMessage := by decide
theorem startMessage_eq : LogLine.text (10 :: ascii "Starting MIGP server") = startMessage := by decide
theorem progressMessage_eq (x : Nat × Nat) : LogLine.text (progressText false x.1 x.2) = progressMessage x := by
  unfold progressText progressMessage
  have e : (ascii "\rEncrypting breach entries: ") = [13] ++ ascii "Encrypting breach entries: " := by decide
  rw [e]
  rfl

theorem serverMainL_eq {args : ServerArgs} {key : PrivateKey} {stale : Nat → Nat → UInt8} {chunk : Nat → Nat}
    {file : Bytes} (hcfg : serverConfig E args.config key stale = some cfg) (hs : NewServer E cfg = .ok s)
    (hd : args.dumpConfig = false) (hf : args.infile = some file) :
    serverMainL E args key stale chunk =
      match (loadLinesL E s args.metadata args.numVariants args.usernameVariant (scannedLines chunk file) newKVStore 0 0).2 with
      | .crashed p => (firstMessage :: (loadLinesL E s args.metadata args.numVariants args.usernameVariant
          (scannedLines chunk file) newKVStore 0 0).1, .crashed p)
      | .done kv successes failures => (firstMessage :: (loadLinesL E s args.metadata args.numVariants args.usernameVariant
          (scannedLines chunk file) newKVStore 0 0).1 ++ [startMessage], .serving s kv successes failures) := by
  unfold serverMainL newCmdServer
  rw [hcfg]
  dsimp only
  rw [hd, if_neg (by simp), hs, hf]
  simp only [Res.ok_bind, firstMessage_eq, startMessage_eq]
  generalize loadLinesL E s args.metadata args.numVariants args.usernameVariant (scannedLines chunk file) newKVStore 0 0 = r
  obtain ⟨r1, r2⟩ := r
  cases r2 <;> rfl

/-- C81: everything the server program logs before it serves: a line with two zeros; one line for each imported line of the
file, with the number of lines imported up to it and the number of those that failed before it; and a line when the file is
loaded. -/
theorem C81_log {args : ServerArgs} {key : PrivateKey} {stale : Nat → Nat → UInt8} {chunk : Nat → Nat}
    {file : Bytes} (hcfg : serverConfig E args.config key stale = some cfg) (hs : NewServer E cfg = .ok s)
    (hd : args.dumpConfig = false) (hf : args.infile = some file) {parts : List (Option (Bytes × Bytes))}
    (hp : ReadsAs file parts) (kv : KV) (a b : Nat) (hserve : serverMain E args key stale chunk = .serving s kv a b) :
    (serverMainL E args key stale chunk).1 =
      firstMessage :: (progress (outcomes s args.metadata parts)).map progressMessage ++ [startMessage] := by
  rw [serverMain_eq hcfg hs hd hf] at hserve
  rw [serverMainL_eq hcfg hs hd hf, loadLinesL_out]
  cases hl : loadLines E s args.metadata args.numVariants args.usernameVariant (scannedLines chunk file) newKVStore 0 0 with
  | crashed p => rw [hl] at hserve; cases hserve
  | done kv' a' b' =>
    dsimp only
    rw [loadLinesL_log hs args.metadata args.numVariants args.usernameVariant _ (insert_good hs _ _ _) _ parts
      (scannedLines_parts chunk file parts hp) newKVStore kv' 0 0 a' b' hl, progressFrom_eq]
    simp only [List.map_map, Function.comp_def, Nat.zero_add, progressMessage_eq]
    rfl

/-- C81: if it crashes while it loads the file it has logged the beginning of this. -/
theorem C81_crashed {args : ServerArgs} {key : PrivateKey} {stale : Nat → Nat → UInt8} {chunk : Nat → Nat}
    {file : Bytes} (hcfg : serverConfig E args.config key stale = some cfg) (hs : NewServer E cfg = .ok s)
    (hd : args.dumpConfig = false) (hf : args.infile = some file) {parts : List (Option (Bytes × Bytes))}
    (hp : ReadsAs file parts) (q : Panic) (hcrash : serverMain E args key stale chunk = .crashed q) :
    (serverMainL E args key stale chunk).1 <+:
      firstMessage :: (progress (outcomes s args.metadata parts)).map progressMessage := by
  rw [serverMain_eq hcfg hs hd hf] at hcrash
  rw [serverMainL_eq hcfg hs hd hf, loadLinesL_out]
  cases hl : loadLines E s args.metadata args.numVariants args.usernameVariant (scannedLines chunk file) newKVStore 0 0 with
  | done kv' a' b' => rw [hl] at hcrash; cases hcrash
  | crashed p =>
    dsimp only
    have := loadLinesL_prefix (E := E) (s := s) args.metadata args.numVariants args.usernameVariant _ (insert_good hs _ _ _) _ parts
      (scannedLines_parts chunk file parts hp) newKVStore 0 0
    rw [progressFrom_eq] at this
    simp only [List.map_map, Function.comp_def, Nat.zero_add, progressMessage_eq] at this
    exact List.prefix_cons_inj _ |>.mpr this

/-- C81: the log shows nothing of the credentials: two files with colons in the same lines leave the same log. -/
theorem C81_no_content {args : ServerArgs} {key : PrivateKey} {stale : Nat → Nat → UInt8} {chunk chunk' : Nat → Nat}
    {file file' : Bytes} (hcfg : serverConfig E args.config key stale = some cfg) (hs : NewServer E cfg = .ok s)
    (hd : args.dumpConfig = false) {parts parts' : List (Option (Bytes × Bytes))} (hp : ReadsAs file parts)
    (hp' : ReadsAs file' parts') (hsame : parts.map Option.isSome = parts'.map Option.isSome) (kv kv' : KV) (a b a' b' : Nat)
    (h : serverMain E { args with infile := some file } key stale chunk = .serving s kv a b)
    (h' : serverMain E { args with infile := some file' } key stale chunk' = .serving s kv' a' b') :
    (serverMainL E { args with infile := some file } key stale chunk).1 =
      (serverMainL E { args with infile := some file' } key stale chunk').1 := by
  rw [C81_log (args := { args with infile := some file }) hcfg hs hd rfl hp kv a b h,
    C81_log (args := { args with infile := some file' }) hcfg hs hd rfl hp' kv' a' b' h']
  have e : outcomes s args.metadata parts = outcomes s args.metadata parts' := by
    unfold outcomes
    have := congrArg (List.map (fun x => x && decide (Spec.tweak s.suite s.privateKey ≠ 0 ∧ args.metadata.length ≤ 8160))) hsame
    simpa only [List.map_map, Function.comp_def] using this
  dsimp only
  rw [e]

theorem progress_eq (l : List Bool) : progress l = progressFrom 0 0 l := by
  rw [progressFrom_eq]
  simp

theorem progressFrom_none (k f : Nat) (l : List Bool) (h : ∀ b ∈ l, b = false) : progressFrom k f l = [] := by
  induction l generalizing f with
  | nil => rfl
  | cons b l ih =>
    rw [h b List.mem_cons_self]
    exact ih _ fun x hx => h x (List.mem_cons_of_mem _ hx)

theorem progressFrom_append (k f : Nat) (l m : List Bool) :
    progressFrom k f (l ++ m) = progressFrom k f l ++ progressFrom (k + l.count true) (f + l.count false) m := by
  induction l generalizing k f with
  | nil => rfl
  | cons b l ih =>
    cases b with
    | true =>
      rw [List.cons_append, progressFrom, progressFrom, ih, List.cons_append]
      simp [Nat.add_comm, Nat.add_left_comm]
    | false =>
      rw [List.cons_append, progressFrom, progressFrom, ih]
      simp [Nat.add_comm, Nat.add_left_comm]

/-- C81: failed lines are reported only by the next line that succeeds. The last numbers in the log are those after the last
imported line: failures behind it are never mentioned. -/
theorem C81_last {args : ServerArgs} {key : PrivateKey} {stale : Nat → Nat → UInt8} {chunk : Nat → Nat}
    {file : Bytes} (hcfg : serverConfig E args.config key stale = some cfg) (hs : NewServer E cfg = .ok s)
    (hd : args.dumpConfig = false) (hf : args.infile = some file) (before : List (Option (Bytes × Bytes))) (u p : Bytes) (k : Nat)
    (hp : ReadsAs file (before ++ some (u, p) :: List.replicate k none)) (ht : Spec.tweak s.suite s.privateKey ≠ 0)
    (hm : args.metadata.length ≤ 8160) (kv : KV) (a b : Nat)
    (hserve : serverMain E args key stale chunk = .serving s kv a b) :
    ∃ earlier, (serverMainL E args key stale chunk).1 =
      earlier ++ [progressMessage ((credentials before).length + 1, before.length - (credentials before).length), startMessage] := by
  rw [C81_log hcfg hs hd hf hp kv a b hserve]
  have hg : decide (Spec.tweak s.suite s.privateKey ≠ 0 ∧ args.metadata.length ≤ 8160) = true := decide_eq_true ⟨ht, hm⟩
  unfold outcomes
  rw [hg, progress_eq, List.map_append, progressFrom_append, List.map_cons]
  have hrest : ∀ i f, progressFrom i f ((List.replicate k (none : Option (Bytes × Bytes))).map fun o => o.isSome && true) = [] := by
    intro i f
    apply progressFrom_none
    intro b hb
    obtain ⟨o, ho, rfl⟩ := List.mem_map.mp hb
    rw [(List.mem_replicate.mp ho).2]
    rfl
  have hstep : ∀ i f, progressFrom i f (((some (u, p)).isSome && true) ::
      (List.replicate k (none : Option (Bytes × Bytes))).map fun o => o.isSome && true) = [(i + 1, f)] := by
    intro i f
    show (i + 1, f) :: progressFrom (i + 1) f _ = _
    rw [hrest]
  rw [hstep]
  have hc1 : ∀ l : List (Option (Bytes × Bytes)), (l.map fun o => o.isSome && true).count true = (credentials l).length ∧
      (l.map fun o => o.isSome && true).count false = l.length - (credentials l).length ∧ (credentials l).length ≤ l.length := by
    intro l
    induction l with
    | nil => exact ⟨rfl, rfl, Nat.le_refl _⟩
    | cons o l ih =>
      obtain ⟨i1, i2, i3⟩ := ih
      cases o with
      | none =>
        have e : credentials (none :: l) = credentials l := rfl
        rw [e, List.map_cons, List.count_cons, List.count_cons, i1, i2, List.length_cons]
        simp
        omega
      | some x =>
        have e : credentials (some x :: l) = x :: credentials l := rfl
        rw [e, List.map_cons, List.count_cons, List.count_cons, i1, i2, List.length_cons, List.length_cons]
        simp
        omega
  rw [(hc1 before).1, (hc1 before).2.1, Nat.zero_add, Nat.zero_add, List.map_append, ← List.cons_append, List.append_assoc]
  exact ⟨_, rfl⟩

/-- One message for each success. -/
theorem loadLinesL_length (md : Bytes) (n : Int) (uv : Bool) (lines : List Bytes) (kv : KV) (a b : Nat) {kv' : KV} {a' b' : Nat}
    (hdone : loadLines E s md n uv lines kv a b = .done kv' a' b') :
    a + (loadLinesL E s md n uv lines kv a b).1.length = a' := by
  induction lines generalizing kv a b with
  | nil => exact (Load.done.inj hdone).2.1
  | cons line lines ih =>
    unfold loadLines at hdone
    unfold loadLinesL
    generalize splitN2 line 58 = parts at hdone ⊢
    rcases parts with _ | ⟨u, _ | ⟨p, _ | ⟨x, rest⟩⟩⟩
    · exact ih _ _ _ hdone
    · exact ih _ _ _ hdone
    · dsimp only at hdone ⊢
      generalize insert E s u p md n uv kv = r at hdone ⊢
      obtain ⟨kv', r⟩ := r
      cases r with
      | panic p => cases hdone
      | err e => exact ih _ _ _ hdone
      | ok u =>
        have := ih _ _ _ hdone
        dsimp only
        rw [List.length_cons]
        omega
    · exact ih _ _ _ hdone

/-- C81: an import that stores nothing looks like one of an empty file: its log has two zeros and the line that the server
starts, however many lines failed. -/
theorem C81_silent {args : ServerArgs} {key : PrivateKey} {stale : Nat → Nat → UInt8} {chunk : Nat → Nat}
    {file : Bytes} (hcfg : serverConfig E args.config key stale = some cfg) (hs : NewServer E cfg = .ok s)
    (hd : args.dumpConfig = false) (hf : args.infile = some file) {parts : List (Option (Bytes × Bytes))}
    (hp : ReadsAs file parts) (kv : KV) (b : Nat) (hserve : serverMain E args key stale chunk = .serving s kv 0 b) :
    (serverMainL E args key stale chunk).1 = [firstMessage, startMessage] := by
  rw [serverMain_eq hcfg hs hd hf] at hserve
  rw [serverMainL_eq hcfg hs hd hf, loadLinesL_out]
  cases hl : loadLines E s args.metadata args.numVariants args.usernameVariant (scannedLines chunk file) newKVStore 0 0 with
  | crashed p => rw [hl] at hserve; cases hserve
  | done kv' a' b' =>
    rw [hl] at hserve
    dsimp only at hserve ⊢
    have h := loadLinesL_length args.metadata args.numVariants args.usernameVariant (scannedLines chunk file) newKVStore 0 0 hl
    have ha : a' = 0 := (ServerRun.serving.inj hserve).2.2.1
    rw [ha] at h
    have h0 := List.length_eq_zero_iff.mp ((Nat.zero_add _).symm.trans h)
    rw [h0]
    rfl

/-! ## Requests -/

/-- C81: what a request for `/evaluate` writes to the log: nothing exactly if it is answered with status 200, else one or two
lines, fixed but for the text of an error: one if the body does not decode and one if what was decoded of it is refused. -/
theorem C81_request (s : Server) (kv : KV) (stale : Nat → Nat → UInt8) (body : Option Bytes) (w : Writer)
    (h : handleEvaluate s kv stale body = .ok w) :
    ((handleEvaluateL s kv stale body).1 = [] ↔ w.reply.status = 200) ∧
    (body = none → (handleEvaluateL s kv stale body).1 = [.failed (ascii "Request body reading failed:")]) ∧
    ∀ data, body = some data →
      let d := ClientRequest.unmarshalJSON stale data ClientRequest.zero
      ∃ one two, (handleEvaluateL s kv stale body).1 = one ++ two ∧
        (d.2 = true ∧ one = [.failed (ascii "Request body unmarshal failed:")] ∨ d.2 = false ∧ one = []) ∧
        ((s.handleRequest d.1 kv.get).IsErr ∧ two = [.failed (ascii "HandleRequest failed:")] ∨
          (s.handleRequest d.1 kv.get).IsOk ∧ two = []) := by
  obtain ⟨w', hw, hnone, hsome⟩ := C50_evaluate s kv stale body
  rw [h] at hw
  cases hw
  cases body with
  | none =>
    rw [hnone rfl]
    have e : (handleEvaluateL s kv stale none).1 = [.failed (ascii "Request body reading failed:")] := rfl
    rw [e]
    exact ⟨by decide, fun _ => rfl, (fun data e => by cases e)⟩
  | some data =>
    have hsome := hsome data rfl
    dsimp only at hsome
    obtain ⟨h1, h2, h3⟩ := hsome
    unfold handleEvaluateL
    dsimp only
    have hall : ∀ (P : Bytes → Prop), P data → ∀ data', some data = some data' → P data' := by
      intro P hP data' e; cases e; exact hP
    refine ⟨?_, (fun e => by cases e), hall _ ?_⟩
    · generalize ClientRequest.unmarshalJSON stale data ClientRequest.zero = d at h1 h2 h3 ⊢
      obtain ⟨r, bad⟩ := d
      dsimp only at h1 h2 h3 ⊢
      rcases handleRequest_kv_cases s r kv with ⟨resp, hr⟩ | ⟨e, hr⟩
      · rw [hr]
        dsimp only
        have hm : ∃ bytes, resp.marshalBinary = .ok bytes := ⟨_, rfl⟩
        obtain ⟨bytes, hm⟩ := hm
        rw [hm]
        dsimp only
        cases bad with
        | true => rw [(h1 rfl).1]; exact ⟨(fun h => by cases h), (fun h => by cases h)⟩
        | false =>
          obtain ⟨bytes', _, hw⟩ := h3 rfl resp hr
          rw [hw]
          exact ⟨fun _ => rfl, fun _ => rfl⟩
      · rw [hr]
        dsimp only
        cases bad with
        | true => rw [(h1 rfl).1]; exact ⟨(fun h => by cases h), (fun h => by cases h)⟩
        | false => rw [h2 rfl e hr]; exact ⟨(fun h => by cases h), (fun h => by cases h)⟩
    · generalize ClientRequest.unmarshalJSON stale data ClientRequest.zero = d at h1 h2 h3 ⊢
      obtain ⟨r, bad⟩ := d
      dsimp only at h1 h2 h3 ⊢
      rcases handleRequest_kv_cases s r kv with ⟨resp, hr⟩ | ⟨e, hr⟩
      · rw [hr]
        dsimp only
        have hm : ∃ bytes, resp.marshalBinary = .ok bytes := ⟨_, rfl⟩
        obtain ⟨bytes, hm⟩ := hm
        rw [hm]
        dsimp only
        cases bad with
        | true => exact ⟨_, [], (List.append_nil _).symm, .inl ⟨rfl, rfl⟩, .inr ⟨⟨_, rfl⟩, rfl⟩⟩
        | false => exact ⟨[], [], rfl, .inr ⟨rfl, rfl⟩, .inr ⟨⟨_, rfl⟩, rfl⟩⟩
      · rw [hr]
        dsimp only
        cases bad with
        | true => exact ⟨_, _, rfl, .inl ⟨rfl, rfl⟩, .inl ⟨⟨_, rfl⟩, rfl⟩⟩
        | false => exact ⟨[], _, rfl, .inr ⟨rfl, rfl⟩, .inl ⟨⟨_, rfl⟩, rfl⟩⟩

end

/-! ## Concrete cases -/

theorem example_served (stale : Nat → Nat → UInt8) (chunk : Nat → Nat) :
    ∃ kv, serverMain Example.ext ⟨none, false, ascii "A", 2, false, some (ascii "user:password1\r\nbroken\n")⟩ ⟨7⟩
        stale chunk = .serving Example.server kv 1 1 := by
  obtain ⟨kv, h, -⟩ := C60_example stale stale stale chunk chunk (fun _ _ => 1) (fun _ => one_ne_zero)
  exact ⟨kv, h⟩

/-- C81_log, C81_last: the file of `C60_example`, a credential and a line without a colon: the log mentions one success and no
failure. -/
example (stale : Nat → Nat → UInt8) (chunk : Nat → Nat) :
    (serverMainL Example.ext ⟨none, false, ascii "A", 2, false, some (ascii "user:password1\r\nbroken\n")⟩ ⟨7⟩ stale chunk).1 =
      [.text (ascii "Encrypting breach entries: 0 successes, 0 failures"),
       .text (ascii "\rEncrypting breach entries: 1 successes, 0 failures"),
       .text (ascii "\nStarting MIGP server")] := by
  obtain ⟨kv, h⟩ := example_served stale chunk
  rw [C81_log (E := Example.ext) (cfg := Example.cfg) (s := Example.server)
    (args := ⟨none, false, ascii "A", 2, false, some (ascii "user:password1\r\nbroken\n")⟩) rfl Example.newServer_eq rfl rfl
    example_reads.1 kv 1 1 h]
  have hg : decide (Spec.tweak Example.server.suite Example.server.privateKey ≠ 0 ∧ (ascii "A").length ≤ 8160) = true :=
    decide_eq_true ⟨example_tweak, by decide⟩
  unfold outcomes
  dsimp only
  rw [hg]
  decide

/-- C81_silent: with a metadata of 8161 bytes every line fails. -/
example (stale : Nat → Nat → UInt8) (chunk : Nat → Nat) :
    (∃ kv, serverMain Example.ext ⟨none, false, List.replicate 8161 65, 2, false, some (ascii "user:password1\r\nbroken\n")⟩ ⟨7⟩
        stale chunk = .serving Example.server kv 0 2) ∧
    (serverMainL Example.ext ⟨none, false, List.replicate 8161 65, 2, false, some (ascii "user:password1\r\nbroken\n")⟩ ⟨7⟩
      stale chunk).1 = [firstMessage, startMessage] := by
  have h : ∃ kv, serverMain Example.ext
      ⟨none, false, List.replicate 8161 65, 2, false, some (ascii "user:password1\r\nbroken\n")⟩ ⟨7⟩ stale chunk =
      .serving Example.server kv 0 2 :=
    ⟨_, C55_nothing_loaded (E := Example.ext) (cfg := Example.cfg) (s := Example.server)
      (args := ⟨none, false, List.replicate 8161 65, 2, false, some (ascii "user:password1\r\nbroken\n")⟩) rfl
      Example.newServer_eq rfl rfl (by decide) (by decide) (.inr (by rw [List.length_replicate]; decide)) example_reads.1⟩
  obtain ⟨kv, h⟩ := h
  exact ⟨⟨kv, h⟩, C81_silent (E := Example.ext) (cfg := Example.cfg) (s := Example.server)
    (args := ⟨none, false, List.replicate 8161 65, 2, false, some (ascii "user:password1\r\nbroken\n")⟩) rfl Example.newServer_eq
    rfl rfl example_reads.1 kv 2 h⟩

/-- C81_crashed: with a negative number of variants the program crashes at the first credential, and has logged one line. -/
example (stale : Nat → Nat → UInt8) (chunk : Nat → Nat) :
    ∃ q, serverMainL Example.ext ⟨none, false, ascii "A", -1, false, some (ascii "user:password1\r\nbroken\n")⟩ ⟨7⟩ stale chunk =
      ([firstMessage], .crashed q) := by
  rw [serverMainL_eq (E := Example.ext) (cfg := Example.cfg) (s := Example.server)
    (args := ⟨none, false, ascii "A", -1, false, some (ascii "user:password1\r\nbroken\n")⟩) rfl Example.newServer_eq rfl rfl]
  have hp := scannedLines_parts chunk _ _ example_reads.1
  generalize scannedLines chunk (ascii "user:password1\r\nbroken\n") = lines at hp ⊢
  cases hp with
  | @cons line _ lines _ ho _ =>
    rw [loadLinesL_cons_some ho]
    obtain ⟨q, hq⟩ := (C45_outcomes Example.newServer_eq ⟨ascii "user", ascii "password1", ascii "A", -1, false⟩ newKVStore).1.mpr
      (.inr ⟨by decide, example_tweak, .inl (by decide)⟩)
    rcases hi : insertRecord Example.ext Example.server ⟨ascii "user", ascii "password1", ascii "A", -1, false⟩ newKVStore with
      ⟨kv1, r⟩
    rw [hi] at hq
    cases hq
    exact ⟨q, rfl⟩

/-- C81_no_content: another credential and another bad line. -/
example (stale : Nat → Nat → UInt8) (chunk : Nat → Nat) :
    (serverMainL Example.ext ⟨none, false, ascii "A", 2, false, some (ascii "user:password1\r\nbroken\n")⟩ ⟨7⟩ stale chunk).1 =
    (serverMainL Example.ext ⟨none, false, ascii "A", 2, false, some (ascii "a:b:c\nd")⟩ ⟨7⟩ stale chunk).1 := by
  have hr : ReadsAs (ascii "a:b:c\nd") [some (ascii "a", ascii "b:c"), none] := by
    refine ⟨[ascii "a:b:c", ascii "d"], [ascii "a:b:c", ascii "d"],
      .line (ascii "a:b:c") (ascii "d") _ (by decide) (.last _ (by decide) (by decide)), ?_,
      .cons ⟨rfl, by decide⟩ (.cons (by unfold IsPart; decide) .nil)⟩
    have : ([ascii "a:b:c", ascii "d"] : List Bytes).takeWhile (fun l => l.length ≤ 65535) = [ascii "a:b:c", ascii "d"] := by
      decide
    rw [this]
    exact .cons (dropCR_chomped _) (.cons (dropCR_chomped _) .nil)
  obtain ⟨kv, h⟩ := example_served stale chunk
  obtain ⟨_, kv', -, h', -⟩ := C55_load_short (E := Example.ext) (cfg := Example.cfg) (s := Example.server)
    (args := ⟨none, false, ascii "A", 2, false, some (ascii "a:b:c\nd")⟩) (key := ⟨7⟩) (stale := stale) (chunk := chunk) rfl
    Example.newServer_eq rfl rfl (by decide) (by decide) example_tweak (by decide) (by decide) (by decide) hr
    (by
      intro x hx
      have : x = (ascii "a", ascii "b:c") := by simpa [credentials] using hx
      rw [this]; decide)
  exact C81_no_content (E := Example.ext) (cfg := Example.cfg) (s := Example.server)
    (args := ⟨none, false, ascii "A", 2, false, none⟩) rfl Example.newServer_eq rfl example_reads.1 hr rfl kv kv' _ _ _ _ h h'

/-- C81_request: a body that cannot be read, and one that is not JSON. -/
example (kv : KV) (stale : Nat → Nat → UInt8) :
    (handleEvaluateL Example.server kv stale none).1 = [.failed (ascii "Request body reading failed:")] ∧
    (handleEvaluateL Example.server kv stale (some [])).1 =
      [.failed (ascii "Request body unmarshal failed:"), .failed (ascii "HandleRequest failed:")] :=
  ⟨rfl, rfl⟩

end Migp.Props
