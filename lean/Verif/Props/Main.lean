import Verif.Model.Main
import Verif.Lemmas.Bufio
import Verif.Props.Query
import Mathlib.Data.List.TakeWhile
/-!
# C55-C57, C60: the two programs
-/
namespace Migp.Props
open Migp.Spec Migp.Bufio Migp.Json Migp.Mutator

variable {E : Ext} {cfg : ServerConfig} {c : Client} {s : Server}

/-! ## Reading the file -/

theorem isPart_some_iff {line u p : Bytes} : IsCredential line u p ↔ splitN2 line 58 = [u, p] := by
  unfold splitN2 IsCredential
  constructor
  · rintro ⟨rfl, h⟩
    have : (u ++ 58 :: p).idxOf? 58 = some u.length := by
      induction u with
      | nil => simp [List.idxOf?_cons]
      | cons x u ih =>
        simp only [List.mem_cons, not_or] at h
        rw [List.cons_append, List.idxOf?_cons, if_neg (by simpa using fun e => h.1 e.symm), ih h.2]
        rfl
    rw [this]
    simp
  · intro h
    split at h
    · rename_i i hi
      injection h with h1 h2
      injection h2 with h2
      have hlt : i < line.length ∧ line[i]? = some 58 ∧ ∀ j, j < i → line[j]? ≠ some 58 := by
        rw [List.idxOf?, List.findIdx?_eq_some_iff_getElem] at hi
        obtain ⟨h1, h2, h3⟩ := hi
        refine ⟨h1, by rw [List.getElem?_eq_getElem h1]; simpa using h2, ?_⟩
        intro j hj
        have := h3 j hj
        rw [List.getElem?_eq_getElem (by omega)]
        simpa using this
      obtain ⟨h3, h4, h5⟩ := hlt
      refine ⟨?_, ?_⟩
      · rw [← h1, ← h2]
        rw [List.getElem?_eq_getElem h3] at h4
        injection h4 with h4
        rw [← h4, List.getElem_cons_drop, List.take_append_drop]
      · rw [← h1]
        intro hm
        obtain ⟨j, hj, he⟩ := List.mem_iff_getElem.mp hm
        rw [List.length_take] at hj
        rw [List.getElem_take] at he
        exact h5 j (by omega) (by rw [List.getElem?_eq_getElem (by omega), he])
    · cases h

theorem isPart_none_iff {line : Bytes} : 58 ∉ line ↔ splitN2 line 58 = [line] := by
  unfold splitN2
  rw [← List.idxOf?_eq_none_iff]
  cases h : line.idxOf? 58 with
  | none => simp
  | some i =>
    simp

theorem isPart_exists (line : Bytes) : ∃ o, IsPart line o := by
  by_cases h : (58 : UInt8) ∈ line
  · obtain ⟨u, p, h1, h2⟩ := List.eq_append_cons_of_mem h
    exact ⟨some (u, p), h1, h2⟩
  · exact ⟨none, h⟩

theorem isPart_unique {line : Bytes} {o o' : Option (Bytes × Bytes)} (h : IsPart line o) (h' : IsPart line o') :
    o = o' := by
  have hnone : ∀ {u p : Bytes}, IsCredential line u p → (58 : UInt8) ∉ line → False := by
    rintro u p ⟨rfl, -⟩ h
    exact h (by simp)
  match o, o' with
  | none, none => rfl
  | some (u, p), some (u', p') =>
    have h1 := isPart_some_iff.mp h
    rw [isPart_some_iff.mp h'] at h1
    injection h1 with h1 h2
    injection h2 with h2
    rw [h1, h2]
  | some (u, p), none => exact (hnone h h').elim
  | none, some (u, p) => exact (hnone h' h).elim

theorem forall₂_map_unique {α β : Type} {R : α → β → Prop} (f : α → β) (hf : ∀ a, R a (f a))
    (hu : ∀ a b b', R a b → R a b' → b = b') {l : List α} {l' : List β} (h : List.Forall₂ R l l') :
    l' = l.map f := by
  induction h with
  | nil => rfl
  | cons h _ ih => rw [List.map_cons, ← ih, hu _ _ _ h (hf _)]

theorem forall₂_exists {α β : Type} {R : α → β → Prop} (h : ∀ a, ∃ b, R a b) (l : List α) :
    ∃ l', List.Forall₂ R l l' := by
  induction l with
  | nil => exact ⟨[], .nil⟩
  | cons a l ih =>
    obtain ⟨b, hb⟩ := h a
    obtain ⟨l', hl⟩ := ih
    exact ⟨b :: l', .cons hb hl⟩

/-- The lines a program sees are those of `ReadsAs`, for every way of reading the file in pieces. -/
theorem scannedLines_parts (chunk : Nat → Nat) (file : Bytes) (parts : List (Option (Bytes × Bytes)))
    (h : ReadsAs file parts) : List.Forall₂ IsPart (scannedLines chunk file) parts := by
  obtain ⟨ls, ch, h1, h2, h3⟩ := h
  rw [scannedLines_eq chunk file ls h1]
  rw [forall₂_map_unique dropCR dropCR_chomped (fun _ _ _ => IsChomped.unique) h2] at h3
  exact h3

/-- C55: every file reads as exactly one list of credentials and lines without a colon. -/
theorem C55_reads (file : Bytes) : ∃ parts, ReadsAs file parts ∧ ∀ parts', ReadsAs file parts' → parts' = parts := by
  obtain ⟨ls, hls⟩ := IsLines.exists file
  obtain ⟨ch, hch⟩ := forall₂_exists (fun a => ⟨_, dropCR_chomped a⟩) (ls.takeWhile (fun l => l.length ≤ 65535))
  obtain ⟨parts, hp⟩ := forall₂_exists isPart_exists ch
  refine ⟨parts, ⟨ls, ch, hls, hch, hp⟩, ?_⟩
  rintro parts' ⟨ls', ch', h1, h2, h3⟩
  obtain rfl := IsLines.unique hls h1
  have e1 := forall₂_map_unique dropCR dropCR_chomped (fun _ _ _ => IsChomped.unique) h2
  have e2 := forall₂_map_unique dropCR dropCR_chomped (fun _ _ _ => IsChomped.unique) hch
  subst e1 e2
  choose f hf using isPart_exists
  rw [forall₂_map_unique f hf (fun _ _ _ => isPart_unique) h3,
    forall₂_map_unique f hf (fun _ _ _ => isPart_unique) hp]

theorem readsAs_lengths {file : Bytes} {parts : List (Option (Bytes × Bytes))} (h : ReadsAs file parts)
    {u p : Bytes} (hm : (u, p) ∈ credentials parts) : u.length + p.length < 65535 := by
  obtain ⟨ls, ch, h1, h2, h3⟩ := h
  have e1 := forall₂_map_unique dropCR dropCR_chomped (fun _ _ _ => IsChomped.unique) h2
  subst e1
  have hall : ∀ line ∈ (ls.takeWhile (fun l => l.length ≤ 65535)).map dropCR, line.length ≤ 65535 := by
    intro line hl
    obtain ⟨l, hl', rfl⟩ := List.mem_map.mp hl
    have h1 := List.mem_takeWhile_imp hl'
    simp only [decide_eq_true_eq] at h1
    have h2 : (dropCR l).length ≤ l.length := by
      unfold dropCR; split
      · rw [List.length_dropLast]; omega
      · exact Nat.le_refl _
    omega
  generalize (ls.takeWhile (fun l => l.length ≤ 65535)).map dropCR = lines at h3 hall
  clear h1 h2
  unfold credentials at hm
  induction h3 with
  | nil => simp at hm
  | @cons line o lines parts ho _ ih =>
    rw [List.filterMap_cons] at hm
    cases o with
    | none => exact ih hm (fun l hl => hall l (List.mem_cons_of_mem _ hl))
    | some x =>
      simp only [id, List.mem_cons] at hm
      rcases hm with rfl | hm
      · have := hall line List.mem_cons_self
        rw [ho.1, List.length_append, List.length_cons] at this
        omega
      · exact ih hm (fun l hl => hall l (List.mem_cons_of_mem _ hl))

/-! ## The server -/

/-- What loading stores for a list of credentials. -/
def storedAll (metadata : Bytes) (numVariants : Int) (withUsername : Bool) (variants : Bytes → List Bytes)
    (creds : List (Bytes × Bytes)) : List Stored :=
  creds.flatMap (fun c => Record.stored ⟨c.1, c.2, metadata, numVariants, withUsername⟩ (variants c.2))

theorem loadLines_cons_none {line : Bytes} (h : IsPart line none) (md : Bytes) (n : Int) (uv : Bool)
    (lines : List Bytes) (kv : KV) (a b : Nat) :
    loadLines E s md n uv (line :: lines) kv a b = loadLines E s md n uv lines kv a (b + 1) := by
  rw [loadLines, isPart_none_iff.mp h]

theorem loadLines_cons_some {line u p : Bytes} (h : IsPart line (some (u, p))) (md : Bytes) (n : Int) (uv : Bool)
    (lines : List Bytes) (kv : KV) (a b : Nat) :
    loadLines E s md n uv (line :: lines) kv a b =
      match insertRecord E s ⟨u, p, md, n, uv⟩ kv with
      | (_, .panic q) => .crashed q
      | (kv, .err _) => loadLines E s md n uv lines kv a (b + 1)
      | (kv, .ok ()) => loadLines E s md n uv lines kv (a + 1) b := by
  rw [loadLines, isPart_some_iff.mp h]
  rfl

theorem mutate_variants (n : Int) (h0 : 0 ≤ n) (h1 : n ≤ maxSliceCap) :
    ∃ variants : Bytes → List Bytes, ∀ p, mutate dasRules p n = .ok (variants p) := by
  choose f hf using fun p => (C37_panics_iff p n).2.mpr ⟨h0, h1⟩
  exact ⟨f, hf⟩

theorem load_stores (hs : NewServer E cfg = .ok s) (h0 : 0 ≤ cfg.bucketIDBitSize) (h32 : cfg.bucketIDBitSize ≤ 32)
    (ht : Spec.tweak s.suite s.privateKey ≠ 0) (md : Bytes) (hm : md.length ≤ 8160) (n : Int) (uv : Bool)
    (hn0 : 0 ≤ n) (hn1 : n ≤ maxSliceCap) (variants : Bytes → List Bytes)
    (hv : ∀ p, mutate dasRules p n = .ok (variants p)) (lines : List Bytes)
    (parts : List (Option (Bytes × Bytes))) (hp : List.Forall₂ IsPart lines parts)
    (hlen : ∀ x ∈ credentials parts, x.1.length ≤ 65536 ∧ x.2.length ≤ 65536) (kv : KV) (db : List Stored)
    (hh : History E s kv db) (a b : Nat) :
    ((∀ x ∈ credentials parts, ∀ v ∈ variants x.2, v.length ≤ 65536) →
      ∃ kv', loadLines E s md n uv lines kv a b =
          .done kv' (a + (credentials parts).length) (b + (parts.length - (credentials parts).length)) ∧
        History E s kv' (db ++ storedAll md n uv variants (credentials parts))) ∧
    ((∃ x ∈ credentials parts, ∃ v ∈ variants x.2, 65536 < v.length) →
      ∃ q, loadLines E s md n uv lines kv a b = .crashed q) := by
  induction hp generalizing kv db a b with
  | nil =>
    refine ⟨fun _ => ⟨kv, rfl, by simpa [storedAll, credentials] using hh⟩, ?_⟩
    rintro ⟨x, hx, -⟩
    simp [credentials] at hx
  | @cons line o lines parts ho _ ih =>
    cases o with
    | none =>
      have hc : credentials (none :: parts) = credentials parts := rfl
      rw [hc] at hlen ⊢
      rw [loadLines_cons_none ho]
      obtain ⟨ih1, ih2⟩ := ih hlen kv db hh a (b + 1)
      refine ⟨fun h => ?_, ih2⟩
      obtain ⟨kv', h1, h2⟩ := ih1 h
      refine ⟨kv', ?_, h2⟩
      have : (credentials parts).length ≤ parts.length := List.length_filterMap_le _ _
      rw [h1, List.length_cons]
      congr 1
      omega
    | some x =>
      obtain ⟨u, p⟩ := x
      have hc : credentials (some (u, p) :: parts) = (u, p) :: credentials parts := rfl
      rw [hc] at hlen ⊢
      obtain ⟨hu, hpl⟩ := hlen (u, p) List.mem_cons_self
      dsimp only at hu hpl
      have hlen' : ∀ x ∈ credentials parts, x.1.length ≤ 65536 ∧ x.2.length ≤ 65536 :=
        fun x hx => hlen x (List.mem_cons_of_mem _ hx)
      rw [loadLines_cons_some ho]
      have hout := C45_outcomes hs ⟨u, p, md, n, uv⟩ kv
      rcases hi : insertRecord E s ⟨u, p, md, n, uv⟩ kv with ⟨kv1, w | e | q⟩
      · -- inserted
        rw [hi] at hout
        dsimp only
        have hh' := History.inserted ⟨u, p, md, n, uv⟩ (variants p) hh hi (hv p)
        obtain ⟨ih1, ih2⟩ := ih hlen' kv1 _ hh' (a + 1) b
        have hnov : ∀ v ∈ variants p, v.length ≤ 65536 := by
          intro v hvm
          by_contra hlt
          have h2 := hout.1.mpr (.inr ⟨hm, ht, .inr (.inr ⟨variants p, hv p, v, hvm, by omega⟩)⟩)
          simp at h2
        constructor
        · intro h
          obtain ⟨kv', h1, h2⟩ := ih1 (fun x hx => h x (List.mem_cons_of_mem _ hx))
          refine ⟨kv', ?_, ?_⟩
          · rw [h1, List.length_cons, List.length_cons]
            congr 1 <;> omega
          · rw [List.append_assoc] at h2
            exact h2
        · rintro ⟨x, hx, v, hvx, hl⟩
          rcases List.mem_cons.mp hx with rfl | hx
          · exact absurd (hnov v hvx) (by omega)
          · exact ih2 ⟨x, hx, v, hvx, hl⟩
      · -- refused
        rw [hi] at hout
        have := hout.2.mp ⟨e, rfl⟩
        rcases this.2 with h | h
        · dsimp only at h; omega
        · exact absurd h ht
      · -- crashed
        rw [hi] at hout
        dsimp only
        refine ⟨fun h => ?_, fun _ => ⟨q, rfl⟩⟩
        exfalso
        rcases hout.1.mp ⟨q, rfl⟩ with h' | ⟨-, -, h' | h' | ⟨vs, h1, v, h2, h3⟩⟩
        · dsimp only at h'; omega
        · dsimp only at h'; omega
        · dsimp only at h'; omega
        · dsimp only at h1
          rw [hv p] at h1
          injection h1 with h1
          subst h1
          have := h (u, p) List.mem_cons_self v h2
          omega

theorem serverMain_eq {args : ServerArgs} {key : PrivateKey} {stale : Nat → Nat → UInt8} {chunk : Nat → Nat}
    {file : Bytes} (hcfg : serverConfig E args.config key stale = some cfg) (hs : NewServer E cfg = .ok s)
    (hd : args.dumpConfig = false) (hf : args.infile = some file) :
    serverMain E args key stale chunk =
      match loadLines E s args.metadata args.numVariants args.usernameVariant (scannedLines chunk file)
        newKVStore 0 0 with
      | .crashed p => .crashed p
      | .done kv successes failures => .serving s kv successes failures := by
  unfold serverMain newCmdServer
  rw [hcfg]
  dsimp only
  rw [hd, if_neg (by simp), hs, hf]
  rfl

/-- C55: with a usable configuration, metadata of at most 8160 bytes and a valid number of variants, the server
loads every file: it stores, in order, the credential of every line that contains a colon, with its variants,
and counts those lines as successes and the others as failures — for every way of reading the file in pieces
— unless a variant of some password is longer than 65536 bytes, in which case it crashes before serving. -/
theorem C55_load {args : ServerArgs} {key : PrivateKey} {stale : Nat → Nat → UInt8} {chunk : Nat → Nat}
    {file : Bytes} (hcfg : serverConfig E args.config key stale = some cfg) (hs : NewServer E cfg = .ok s)
    (hd : args.dumpConfig = false) (hf : args.infile = some file)
    (h0 : 0 ≤ cfg.bucketIDBitSize) (h32 : cfg.bucketIDBitSize ≤ 32)
    (ht : Spec.tweak s.suite s.privateKey ≠ 0) (hm : args.metadata.length ≤ 8160)
    (hn0 : 0 ≤ args.numVariants) (hn1 : args.numVariants ≤ maxSliceCap)
    {parts : List (Option (Bytes × Bytes))} (hp : ReadsAs file parts) :
    ∃ variants : Bytes → List Bytes, (∀ p, mutate dasRules p args.numVariants = .ok (variants p)) ∧
      ((∀ x ∈ credentials parts, ∀ v ∈ variants x.2, v.length ≤ 65536) →
        ∃ kv, serverMain E args key stale chunk =
            .serving s kv (credentials parts).length (parts.length - (credentials parts).length) ∧
          History E s kv (storedAll args.metadata args.numVariants args.usernameVariant variants
            (credentials parts))) ∧
      ((∃ x ∈ credentials parts, ∃ v ∈ variants x.2, 65536 < v.length) →
        ∃ q, serverMain E args key stale chunk = .crashed q) := by
  obtain ⟨variants, hv⟩ := mutate_variants args.numVariants hn0 hn1
  refine ⟨variants, hv, ?_⟩
  rw [serverMain_eq hcfg hs hd hf]
  obtain ⟨h1, h2⟩ := load_stores hs h0 h32 ht args.metadata hm args.numVariants args.usernameVariant hn0 hn1
    variants hv _ _ (scannedLines_parts chunk file parts hp)
    (fun x hx => by have := readsAs_lengths hp (u := x.1) (p := x.2) hx; omega) newKVStore [] .start 0 0
  constructor
  · intro h
    obtain ⟨kv, h3, h4⟩ := h1 h
    rw [h3, Nat.zero_add, Nat.zero_add]
    exact ⟨kv, rfl, h4⟩
  · intro h
    obtain ⟨q, h3⟩ := h2 h
    rw [h3]
    exact ⟨q, rfl⟩

/-- C55: a file whose passwords have at most 49152 bytes is always loaded. -/
theorem C55_load_short {args : ServerArgs} {key : PrivateKey} {stale : Nat → Nat → UInt8} {chunk : Nat → Nat}
    {file : Bytes} (hcfg : serverConfig E args.config key stale = some cfg) (hs : NewServer E cfg = .ok s)
    (hd : args.dumpConfig = false) (hf : args.infile = some file)
    (h0 : 0 ≤ cfg.bucketIDBitSize) (h32 : cfg.bucketIDBitSize ≤ 32)
    (ht : Spec.tweak s.suite s.privateKey ≠ 0) (hm : args.metadata.length ≤ 8160)
    (hn0 : 0 ≤ args.numVariants) (hn1 : args.numVariants ≤ maxSliceCap)
    {parts : List (Option (Bytes × Bytes))} (hp : ReadsAs file parts)
    (hlen : ∀ x ∈ credentials parts, x.2.length ≤ 49152) :
    ∃ (variants : Bytes → List Bytes) (kv : KV), (∀ p, mutate dasRules p args.numVariants = .ok (variants p)) ∧
      serverMain E args key stale chunk =
        .serving s kv (credentials parts).length (parts.length - (credentials parts).length) ∧
      History E s kv (storedAll args.metadata args.numVariants args.usernameVariant variants
        (credentials parts)) := by
  obtain ⟨variants, hv, h1, -⟩ := C55_load (chunk := chunk) hcfg hs hd hf h0 h32 ht hm hn0 hn1 hp
  obtain ⟨kv, h2, h3⟩ := h1 (fun x hx v hvx => by
    have h1 := (C41_length _ _ _ (hv x.2) v hvx).1
    have h2 := hlen x hx
    omega)
  exact ⟨variants, kv, hv, h2, h3⟩

/-- C55: with metadata that is too long, or a key that cancels the info scalar, every line counts as a failure, and the
server serves the empty store. -/
theorem C55_nothing_loaded {args : ServerArgs} {key : PrivateKey} {stale : Nat → Nat → UInt8} {chunk : Nat → Nat}
    {file : Bytes} (hcfg : serverConfig E args.config key stale = some cfg) (hs : NewServer E cfg = .ok s)
    (hd : args.dumpConfig = false) (hf : args.infile = some file)
    (h0 : 0 ≤ cfg.bucketIDBitSize) (h32 : cfg.bucketIDBitSize ≤ 32)
    (hbad : Spec.tweak s.suite s.privateKey = 0 ∨ 8160 < args.metadata.length)
    {parts : List (Option (Bytes × Bytes))} (hp : ReadsAs file parts) :
    serverMain E args key stale chunk = .serving s newKVStore 0 parts.length := by
  rw [serverMain_eq hcfg hs hd hf]
  have hlen : ∀ x ∈ credentials parts, x.1.length ≤ 65536 ∧ x.2.length ≤ 65536 :=
    fun x hx => by have := readsAs_lengths hp (u := x.1) (p := x.2) hx; omega
  have hp' := scannedLines_parts chunk file parts hp
  clear hp
  suffices h : ∀ b, loadLines E s args.metadata args.numVariants args.usernameVariant (scannedLines chunk file)
      newKVStore 0 b = .done newKVStore 0 (b + parts.length) by
    rw [h 0, Nat.zero_add]
  generalize scannedLines chunk file = lines at hp'
  induction hp' with
  | nil => intro b; rfl
  | @cons line o lines parts ho _ ih =>
    intro b
    cases o with
    | none =>
      rw [loadLines_cons_none ho, ih hlen (b + 1), List.length_cons]
      congr 1; omega
    | some x =>
      obtain ⟨u, p⟩ := x
      have hc : credentials (some (u, p) :: parts) = (u, p) :: credentials parts := rfl
      rw [hc] at hlen
      have hl := hlen (u, p) List.mem_cons_self
      rw [loadLines_cons_some ho]
      have hout := (C45_outcomes hs ⟨u, p, args.metadata, args.numVariants, args.usernameVariant⟩ newKVStore).2.mpr
        ⟨⟨h0, h32, hl.1, hl.2⟩, hbad.symm⟩
      rcases hi : insertRecord E s ⟨u, p, args.metadata, args.numVariants, args.usernameVariant⟩ newKVStore with
        ⟨kv1, w | e | q⟩
      · rw [hi] at hout; simp at hout
      · dsimp only
        rw [C44_error_stores_nothing hs _ _ _ _ hi, ih (fun x hx => hlen x (List.mem_cons_of_mem _ hx)) (b + 1),
          List.length_cons]
        congr 1; omega
      · rw [hi] at hout; simp at hout

/-! ## C56: overlong lines -/

/-- C56: if no line has more than 65535 bytes, all of them are read. -/
theorem C56_complete (file : Bytes) (parts : List (Option (Bytes × Bytes))) (hp : ReadsAs file parts)
    (ls : List Bytes) (hl : IsLines file ls) (hs : ∀ l ∈ ls, l.length ≤ 65535) :
    parts.length = ls.length ∧ ∃ chomped, List.Forall₂ IsChomped ls chomped ∧ List.Forall₂ IsPart chomped parts := by
  obtain ⟨ls', ch, h1, h2, h3⟩ := hp
  obtain rfl := IsLines.unique h1 hl
  rw [List.takeWhile_eq_self_iff.mpr (fun x hx => decide_eq_true (hs x hx))] at h2
  exact ⟨by rw [← h3.length_eq, ← h2.length_eq], ch, h2, h3⟩

/-- C56: lines from the first one of more than 65535 bytes on have no effect: both programs do the same as with a
file that ends before it. -/
theorem C56_silent_stop (a long rest : Bytes) (chunk chunk' : Nat → Nat) (ha : a = [] ∨ ∃ a', a = a' ++ [10])
    (hl : 65535 < long.length) (hn : 10 ∉ long) :
    scannedLines chunk (a ++ long ++ rest) = scannedLines chunk' a := by
  have key : ∀ (n : Nat) (a : Bytes), a.length = n → (a = [] ∨ ∃ a', a = a' ++ [10]) →
      ∀ ls ls', IsLines (a ++ long ++ rest) ls → IsLines a ls' → seen ls = seen ls' := by
    intro n
    induction n using Nat.strongRecOn with
    | _ n ih =>
      intro a hlen ha ls ls' h1 h2
      rcases exists_first_newline a with h | ⟨l, r, rfl, h⟩
      · have hnil : a = [] := by
          rcases ha with h | ⟨a', rfl⟩
          · exact h
          · simp at h
        subst hnil
        obtain ⟨l, ls1, rfl, hl1⟩ := IsLines.long h1 (a := long) (b := rest) (by simp) hn (by omega)
        rw [IsLines.single_inv (l := []) (by simp) h2]
        unfold seen
        rw [List.takeWhile_cons, if_neg (by simp; omega)]
        rfl
      · rw [List.append_assoc, List.append_assoc, List.cons_append, ← List.append_assoc] at h1
        obtain ⟨ls1, rfl, h1'⟩ := IsLines.cons_inv h (by simpa using h1)
        obtain ⟨ls2, rfl, h2'⟩ := IsLines.cons_inv h h2
        have hr : r = [] ∨ ∃ a', r = a' ++ [10] := by
          rcases ha with h | ⟨a', h⟩
          · simp at h
          · rcases List.eq_nil_or_concat r with rfl | ⟨r', x, rfl⟩
            · exact .inl rfl
            · right
              rw [List.concat_eq_append] at h ⊢
              have : (l ++ 10 :: r') ++ [x] = a' ++ [10] := by simpa using h
              have := List.append_inj_right' this rfl
              exact ⟨r', by rw [this]⟩
        have e := ih r.length (by rw [← hlen, List.length_append, List.length_cons]; omega) r rfl hr ls1 ls2
          (by simpa using h1') h2'
        unfold seen at e ⊢
        rw [List.takeWhile_cons, List.takeWhile_cons]
        split
        · rw [List.map_cons, List.map_cons, e]
        · rfl
  obtain ⟨ls, h1⟩ := IsLines.exists (a ++ long ++ rest)
  obtain ⟨ls', h2⟩ := IsLines.exists a
  rw [scannedLines_eq chunk _ ls h1, scannedLines_eq chunk' _ ls' h2]
  exact key _ a rfl ha ls ls' h1 h2

/-- C56: so the server program runs as if the file ended before an overlong line: no error, and no failure is
counted. -/
theorem C56_server (args : ServerArgs) (key : PrivateKey) (stale : Nat → Nat → UInt8) (a long rest : Bytes)
    (chunk chunk' : Nat → Nat) (ha : a = [] ∨ ∃ a', a = a' ++ [10]) (hl : 65535 < long.length) (hn : 10 ∉ long) :
    serverMain E { args with infile := some (a ++ long ++ rest) } key stale chunk =
      serverMain E { args with infile := some a } key stale chunk' := by
  unfold serverMain
  dsimp only
  rw [C56_silent_stop a long rest chunk chunk' ha hl hn]

/-- C56: and so does the client. -/
theorem C56_client (args : ClientArgs) (get : Transport) (post : Nat → Bytes → Transport)
    (rand : Nat → (S : Suite) → ZMod S.q) (stale : Nat → Nat → UInt8) (a long rest : Bytes)
    (chunk chunk' : Nat → Nat) (ha : a = [] ∨ ∃ a', a = a' ++ [10]) (hl : 65535 < long.length) (hn : 10 ∉ long) :
    clientMain E { args with infile := some (a ++ long ++ rest) } get post rand stale chunk =
      clientMain E { args with infile := some a } get post rand stale chunk' := by
  unfold clientMain
  dsimp only
  rw [C56_silent_stop a long rest chunk chunk' ha hl hn]

/-- C56: so 'every well-formed line of the file is read' is false. -/
theorem C56_not_all_read : ∃ file ls parts line, IsLines file ls ∧ ReadsAs file parts ∧ line ∈ ls ∧
    IsCredential line (ascii "user") (ascii "pw") ∧ parts = [] := by
  have hlong : (10 : UInt8) ∉ List.replicate 65536 (97 : UInt8) := by
    intro h
    exact absurd (List.eq_of_mem_replicate h) (by decide)
  have hl : IsLines (List.replicate 65536 (97 : UInt8) ++ 10 :: ascii "user:pw")
      [List.replicate 65536 97, ascii "user:pw"] :=
    .line _ _ _ hlong (.last _ (by decide) (by decide))
  refine ⟨_, _, [], ascii "user:pw", hl, ⟨_, [], hl, ?_, .nil⟩, ?_, ⟨rfl, by decide⟩, rfl⟩
  · rw [List.takeWhile_cons, if_neg (by rw [decide_eq_true_iff, List.length_replicate]; decide)]
    exact .nil
  · exact List.mem_cons_of_mem _ (List.mem_singleton.mpr rfl)

/-! ## C57: the client's output -/

theorem quoteRune_bytes {r : Bytes} (h : Piece r) : ∀ c ∈ quoteRune r, 32 ≤ c.toNat := by
  rcases h with ⟨b, rfl⟩ | ⟨h2, h4, hw, hc⟩
  · have hd : ∀ n, n < 16 → 32 ≤ (hexDigit n).toNat := by decide
    rcases quoteRune_single b _ rfl with ⟨hb, h | h | h | h | h | h⟩ | ⟨hb, h⟩
    · rw [h.1]
      intro c hc
      simp only [List.mem_cons, List.not_mem_nil, or_false] at hc
      rcases hc with rfl | rfl
      · decide
      · omega
    · rw [h.1]; decide
    · rw [h.1]; decide
    · rw [h.1]; decide
    · rw [h]
      intro c hc
      simp only [List.mem_cons, List.not_mem_nil, or_false] at hc
      rcases hc with rfl | rfl | rfl | rfl | rfl | rfl
      · decide
      · decide
      · decide
      · decide
      · exact hd _ (by omega)
      · exact hd _ (by omega)
    · rw [h.1]
      intro c hc
      rw [List.mem_singleton] at hc
      rw [hc]; exact h.2.1
    · rw [h]; decide
  · rcases quoteRune_multi h2 with ⟨h, -⟩ | ⟨h, -⟩ | h
    · rw [h]; decide
    · rw [h]; decide
    · rw [h]; intro c hr; have := hc c hr; omega

theorem quote_bytes (s : GoString) : ∀ c ∈ quote s, 32 ≤ c.toNat := by
  intro c hc
  unfold quote at hc
  simp only [List.mem_append, List.mem_cons, List.not_mem_nil, or_false] at hc
  rcases hc with (rfl | hc) | rfl
  · decide
  · obtain ⟨r, hr, hc⟩ := List.mem_flatMap.mp hc
    exact quoteRune_bytes ((runes_spec s).2 r hr) c hc
  · decide

theorem encMembers_bytes (ms : List (GoString × Bytes))
    (h : ∀ m ∈ ms, (∀ c ∈ m.1, 32 ≤ c.toNat) ∧ ∀ c ∈ m.2, 32 ≤ c.toNat) :
    ∀ c ∈ encMembers ms, 32 ≤ c.toNat := by
  induction ms with
  | nil => intro c hc; cases hc
  | cons m ms ih =>
    obtain ⟨k, v⟩ := m
    have hk := h (k, v) List.mem_cons_self
    dsimp only at hk
    have hq : (32 : Nat) ≤ (34 : UInt8).toNat := by decide
    have hq2 : (32 : Nat) ≤ (58 : UInt8).toNat := by decide
    have hq3 : (32 : Nat) ≤ (44 : UInt8).toNat := by decide
    have ih' := ih (fun m hm => h m (List.mem_cons_of_mem _ hm))
    intro c hc
    cases ms with
    | nil =>
      simp only [encMembers, List.mem_append, List.mem_cons, List.not_mem_nil, or_false] at hc
      rcases hc with ((rfl | hc) | rfl | rfl) | hc
      · exact hq
      · exact hk.1 c hc
      · exact hq
      · exact hq2
      · exact hk.2 c hc
    | cons m' ms' =>
      simp only [encMembers, List.mem_append, List.mem_cons, List.not_mem_nil, or_false] at hc
      rcases hc with ((((rfl | hc) | rfl | rfl) | hc) | rfl) | hc
      · exact hq
      · exact hk.1 c hc
      · exact hq
      · exact hq2
      · exact hk.2 c hc
      · exact hq3
      · exact ih' c hc

/-- What the object printed for an answer says: always a username and a status; metadata if it is not
empty; a password only if it is to be shown and not empty. Bytes that are not UTF-8 appear as U+FFFD. -/
def Answer (showPassword : Bool) (username password : Bytes) (status : BreachStatus) (metadata : Option Bytes) :
    JVal :=
  .obj ([(ascii "username", .str (toValidUTF8 username))] ++
    (if showPassword ∧ password ≠ [] then [(ascii "password", .str (toValidUTF8 password))] else []) ++
    [(ascii "status", .str (ascii status.toString))] ++
    (match metadata with
     | none | some [] => []
     | some md => [(ascii "metadata", .str (toValidUTF8 md))]))

theorem status_utf8 (st : BreachStatus) : toValidUTF8 (ascii st.toString) = ascii st.toString := by
  rw [toValidUTF8_eq_iff]
  unfold BreachStatus.toString
  repeat' split
  all_goals decide +kernel

/-- C57: the object parses as the answer, and is on one line. -/
theorem C57_object (showPassword : Bool) (username password : Bytes) (status : BreachStatus)
    (metadata : Option Bytes) :
    parse (clientObject showPassword username password status metadata) =
      some (Answer showPassword username password status metadata) ∧
    10 ∉ clientObject showPassword username password status metadata := by
  have hplain : PlainName (ascii "username") ∧ PlainName (ascii "password") ∧ PlainName (ascii "status") ∧
      PlainName (ascii "metadata") := by decide
  obtain ⟨p1, p2, p3, p4⟩ := hplain
  let ms : List Member :=
    [⟨ascii "username", quote username, .str (toValidUTF8 username)⟩] ++
    (if showPassword ∧ password ≠ [] then [⟨ascii "password", quote password, .str (toValidUTF8 password)⟩] else []) ++
    [⟨ascii "status", quote (ascii status.toString), .str (toValidUTF8 (ascii status.toString))⟩] ++
    (if metadata.getD [] = [] then []
     else [⟨ascii "metadata", quote (metadata.getD []), .str (toValidUTF8 (metadata.getD []))⟩])
  have hms : ∀ m ∈ ms, PlainName m.name ∧ ∃ s, m.text = quote s ∧ m.val = .str (toValidUTF8 s) := by
    intro m hm
    simp only [ms, List.mem_append, List.mem_cons, List.not_mem_nil, or_false] at hm
    rcases hm with ((rfl | hm) | rfl) | hm
    · exact ⟨p1, _, rfl, rfl⟩
    · split at hm
      · rw [List.mem_singleton] at hm; rw [hm]; exact ⟨p2, _, rfl, rfl⟩
      · cases hm
    · exact ⟨p3, _, rfl, rfl⟩
    · split at hm
      · cases hm
      · rw [List.mem_singleton] at hm; rw [hm]; exact ⟨p4, _, rfl, rfl⟩
  have hobj : clientObject showPassword username password status metadata =
      encObject (ms.map (fun m : Member => (m.name, m.text))) := by
    unfold clientObject
    dsimp only
    congr 1
    simp only [ms, List.map_append, List.map_cons, List.map_nil]
    congr 1
    · congr 1
      congr 1
      cases showPassword
      · simp
      · by_cases hp : password = [] <;> simp [hp]
    · by_cases hm : metadata.getD [] = [] <;> simp [hm]
  rw [hobj]
  constructor
  · rw [parse_object ms (by simp [ms]) (fun m hm => by
      obtain ⟨h1, s, h2, h3⟩ := hms m hm
      rw [h2, h3]
      exact ⟨h1, Reads.quote s⟩)]
    refine congrArg some ?_
    unfold Answer
    congr 1
    simp only [ms, List.map_append, List.map_cons, List.map_nil, status_utf8]
    congr 1
    · congr 1
      congr 1
      split <;> simp
    · rcases metadata with _ | _ | ⟨x, md⟩ <;> simp
  · intro h
    unfold encObject at h
    simp only [List.mem_append, List.mem_cons, List.not_mem_nil, or_false] at h
    rcases h with (h | h) | h
    · revert h; decide
    · have := encMembers_bytes _ (by
        intro m hm
        obtain ⟨m', hm', rfl⟩ := List.mem_map.mp hm
        obtain ⟨h1, s, h2, h3⟩ := hms m' hm'
        refine ⟨fun c hc => (h1 c hc).1, ?_⟩
        dsimp only
        rw [h2]
        exact quote_bytes s) 10 h
      revert this; decide
    · revert h; decide

/-- C57: without `-show-password`, what is printed for a credential does not depend on its password other
than through the answer. -/
theorem C57_no_password (username password password' : Bytes) (status : BreachStatus) (metadata : Option Bytes) :
    clientObject false username password status metadata = clientObject false username password' status metadata :=
  rfl

theorem queryLines_spec (show_ : Bool) (query : Nat → Bytes → Bytes → Out) (lines : List Bytes)
    (parts : List (Option (Bytes × Bytes))) (hp : List.Forall₂ IsPart lines parts) (k : Nat) :
    ∃ answers : List (BreachStatus × Option Bytes),
      answers.length ≤ (credentials parts).length ∧
      (∀ i u p, i < answers.length → (credentials parts)[i]? = some (u, p) →
        ∃ st md, answers[i]? = some (st, md) ∧ query (k + i) u p = .ret st md none) ∧
      (queryLines show_ query k lines).1 =
        ((credentials parts).zip answers).flatMap
          (fun x => clientObject show_ x.1.1 x.1.2 x.2.1 x.2.2 ++ [10]) ∧
      (match (credentials parts)[answers.length]? with
       | none => (queryLines show_ query k lines).2 = .ok
       | some (u, p) =>
          (∃ st md e, query (k + answers.length) u p = .ret st md (some e) ∧
            (queryLines show_ query k lines).2 = .failure) ∨
          (∃ q, query (k + answers.length) u p = .panic q ∧ (queryLines show_ query k lines).2 = .panic q)) := by
  induction hp generalizing k with
  | nil => exact ⟨[], by simp [queryLines, credentials]⟩
  | @cons line o lines parts ho _ ih =>
    cases o with
    | none =>
      have hc : credentials (none :: parts) = credentials parts := rfl
      rw [hc, queryLines, isPart_none_iff.mp ho]
      exact ih k
    | some x =>
      obtain ⟨u, p⟩ := x
      have hc : credentials (some (u, p) :: parts) = (u, p) :: credentials parts := rfl
      rw [hc, queryLines, isPart_some_iff.mp ho]
      dsimp only
      cases hq : query k u p with
      | panic q => exact ⟨[], by simp, by simp, by simp, .inr ⟨q, by simpa using hq, rfl⟩⟩
      | ret st md err =>
        cases err with
        | some e => exact ⟨[], by simp, by simp, by simp, .inl ⟨st, md, e, by simpa using hq, rfl⟩⟩
        | none =>
          obtain ⟨answers, h1, h2, h3, h4⟩ := ih (k + 1)
          refine ⟨(st, md) :: answers, ?_, ?_, ?_, ?_⟩
          · simpa using h1
          · intro i u' p' hi hget
            cases i with
            | zero =>
              simp only [List.getElem?_cons_zero, Option.some.injEq, Prod.mk.injEq] at hget
              obtain ⟨rfl, rfl⟩ := hget
              exact ⟨st, md, rfl, hq⟩
            | succ i =>
              simp only [List.getElem?_cons_succ] at hget ⊢
              obtain ⟨st', md', h5, h6⟩ := h2 i u' p' (by simpa using hi) hget
              exact ⟨st', md', h5, by rw [← h6]; congr 1; omega⟩
          · rw [List.zip_cons_cons, List.flatMap_cons, ← h3]
          · simp only [List.length_cons, List.getElem?_cons_succ]
            have e : k + (answers.length + 1) = k + 1 + answers.length := by omega
            rw [e]
            exact h4

/-- C57: given a configuration and a file, the client asks one query for each line that has a colon, in order, and
prints one JSON object per line for each answered query; it stops at the first query that fails, with exit
status 1 and nothing printed for it, and otherwise exits with status 0 having answered all. It warns if and only if
the version of the configuration is not 1. -/
theorem C57_client {args : ClientArgs} {get : Transport} {post : Nat → Bytes → Transport}
    {rand : Nat → (S : Suite) → ZMod S.q} {stale : Nat → Nat → UInt8} {chunk : Nat → Nat} {ccfg : Config}
    {file : Bytes} (hcfg : clientConfig args.config get stale = some ccfg) (hd : args.dumpConfig = false)
    (hf : args.infile = some file) {parts : List (Option (Bytes × Bytes))} (hp : ReadsAs file parts) :
    ∃ answers : List (BreachStatus × Option Bytes),
      answers.length ≤ (credentials parts).length ∧
      (∀ i u p, i < answers.length → (credentials parts)[i]? = some (u, p) →
        ∃ st md, answers[i]? = some (st, md) ∧ Query E ccfg (post i) u p (rand i) = .ret st md none) ∧
      (clientMain E args get post rand stale chunk).stdout =
        ((credentials parts).zip answers).flatMap
          (fun x => clientObject args.showPassword x.1.1 x.1.2 x.2.1 x.2.2 ++ [10]) ∧
      ((clientMain E args get post rand stale chunk).warned = true ↔ ccfg.version ≠ 1) ∧
      (match (credentials parts)[answers.length]? with
       | none => (clientMain E args get post rand stale chunk).exit = .ok
       | some (u, p) =>
          (∃ st md e, Query E ccfg (post answers.length) u p (rand answers.length) = .ret st md (some e) ∧
            (clientMain E args get post rand stale chunk).exit = .failure) ∨
          (∃ q, Query E ccfg (post answers.length) u p (rand answers.length) = .panic q ∧
            (clientMain E args get post rand stale chunk).exit = .panic q)) := by
  obtain ⟨answers, h1, h2, h3, h4⟩ := queryLines_spec args.showPassword
    (fun k u p => Query E ccfg (post k) u p (rand k)) _ _ (scannedLines_parts chunk file parts hp) 0
  simp only [Nat.zero_add] at h2 h4
  have hm : clientMain E args get post rand stale chunk =
      ⟨(queryLines args.showPassword (fun k u p => Query E ccfg (post k) u p (rand k)) 0
          (scannedLines chunk file)).1, decide (ccfg.version ≠ DefaultMIGPVersion),
        (queryLines args.showPassword (fun k u p => Query E ccfg (post k) u p (rand k)) 0
          (scannedLines chunk file)).2⟩ := by
    unfold clientMain
    rw [hcfg]
    dsimp only
    rw [hd, if_neg (by simp), hf]
  rw [hm]
  exact ⟨answers, h1, h2, h3, by dsimp only; rw [decide_eq_true_iff]; rfl, h4⟩

end Migp.Props
