import Verif.Spec.Pieces
import Verif.Props.Restart
/-!
# C88: stores built in pieces

A credential list may be encrypted in pieces, by several processes or at several times, and the buckets put together
afterwards; a store may be divided among servers by bucket.
-/
namespace Migp.Props
open Spec Bufio Http Mutator

variable {E : Ext} {cfg : ServerConfig} {s : Server} {c : Client}

/-- Two stores put together. -/
def _root_.Migp.KV.join (a b : KV) : KV := ⟨fun k => a.store k ++ b.store k⟩

theorem joined_iff {a b kv : KV} : Joined a b kv ↔ kv = a.join b := by
  constructor
  · intro h
    apply KV.ext
    intro k
    obtain ⟨x, y, h1, h2, h3⟩ := h k
    injection h1 with h1
    injection h2 with h2
    injection h3 with h3
    rw [h3, ← h1, ← h2]; rfl
  · rintro rfl k
    exact ⟨_, _, rfl, rfl, rfl⟩

theorem join_empty (a : KV) : a.join newKVStore = a := KV.ext fun _ => List.append_nil _

theorem empty_join (a : KV) : newKVStore.join a = a := KV.ext fun _ => List.nil_append _

theorem join_assoc (a b d : KV) : (a.join b).join d = a.join (b.join d) := KV.ext fun _ => List.append_assoc _ _ _

theorem join_append (a b : KV) (id : GoString) (v : Bytes) : (a.join b).append id v = a.join (b.append id v) := by
  apply KV.ext
  intro k
  simp only [KV.append, KV.join]
  split
  · rename_i h; rw [h, List.append_assoc]
  · rfl

theorem insertVariants_join (u m : Bytes) (hex : GoString) (vs : List Bytes) (a b : KV) :
    insertVariants E s u m hex vs (a.join b) =
      (a.join (insertVariants E s u m hex vs b).1, (insertVariants E s u m hex vs b).2) := by
  induction vs generalizing b with
  | nil => rfl
  | cons v vs ih =>
    unfold insertVariants
    split
    · rw [join_append, ih]
    · rfl
    · rfl

theorem insertUsername_join (u m : Bytes) (hex : GoString) (w : Bool) (a b : KV) :
    insertUsername E s u m hex w (a.join b) =
      (a.join (insertUsername E s u m hex w b).1, (insertUsername E s u m hex w b).2) := by
  unfold insertUsername
  split
  · split
    · rw [join_append]
    · rfl
    · rfl
  · rfl

/-- What an insert does is not influenced by what the store holds. -/
theorem insert_join (u p m : Bytes) (n : Int) (w : Bool) (a b : KV) :
    insert E s u p m n w (a.join b) = (a.join (insert E s u p m n w b).1, (insert E s u p m n w b).2) := by
  unfold insert
  split
  · rfl
  · rfl
  · dsimp only
    split
    · rfl
    · rfl
    · rw [join_append]
      split
      · rfl
      · rfl
      · rename_i vs _
        rw [insertVariants_join]
        rcases insertVariants E s u m _ vs _ with ⟨kv, x | e | q⟩
        · exact insertUsername_join ..
        · rfl
        · rfl

theorem insertRecord_join (r : Record) (a b : KV) :
    insertRecord E s r (a.join b) = (a.join (insertRecord E s r b).1, (insertRecord E s r b).2) := insert_join ..

/-- C88: how an insert ends, and what it appends, do not depend on what the store holds: it ends as on the empty store, and
adds to every bucket what it puts there. -/
theorem C88_insert (r : Record) (kv : KV) :
    (insertRecord E s r kv).2 = (insertRecord E s r newKVStore).2 ∧
    Joined kv (insertRecord E s r newKVStore).1 (insertRecord E s r kv).1 := by
  have h := insertRecord_join (E := E) (s := s) r kv newKVStore
  rw [join_empty] at h
  rw [h]
  exact ⟨rfl, joined_iff.mpr rfl⟩

theorem fold_join (recs : List Record) (a b : KV) :
    recs.foldl (fun kv r => (insertRecord E s r kv).1) (a.join b) =
      a.join (recs.foldl (fun kv r => (insertRecord E s r kv).1) b) := by
  induction recs generalizing b with
  | nil => rfl
  | cons r recs ih => rw [List.foldl_cons, List.foldl_cons, insertRecord_join, ih]

theorem fold_start (recs : List Record) (kv : KV) :
    recs.foldl (fun kv r => (insertRecord E s r kv).1) kv =
      kv.join (recs.foldl (fun kv r => (insertRecord E s r kv).1) newKVStore) := by
  rw [← fold_join, join_empty]

theorem joinedAll_cons {a b : KV} {pieces : List KV} (h : JoinedAll pieces b) : JoinedAll (a :: pieces) (a.join b) := by
  intro key
  obtain ⟨xs, h1, h2⟩ := h key
  refine ⟨a.store key :: xs, .cons rfl h1, ?_⟩
  injection h2 with h2
  rw [List.flatten_cons, ← h2]; rfl

/-- C88: records may be inserted in pieces, each into an empty store, by any number of servers with this configuration and key:
the stores put together in order are the store in which all of them have been inserted one after the other, whatever
becomes of the single inserts. -/
theorem C88_pieces (pieces : List (List Record)) :
    JoinedAll (pieces.map (fun recs => recs.foldl (fun kv r => (insertRecord E s r kv).1) newKVStore))
      (pieces.flatten.foldl (fun kv r => (insertRecord E s r kv).1) newKVStore) := by
  induction pieces with
  | nil => exact fun key => ⟨[], .nil, rfl⟩
  | cons recs pieces ih =>
    rw [List.flatten_cons, List.foldl_append, List.map_cons, fold_start pieces.flatten]
    exact joinedAll_cons ih

/-! ## What is put together is as good as what was inserted -/

theorem history_join {a b : KV} {da db : List Stored} (ha : History E s a da) (hb : History E s b db) :
    History E s (a.join b) (da ++ db) := by
  induction hb with
  | start => rw [join_empty, List.append_nil]; exact ha
  | inserted r vs _ hi hvs ih =>
    rw [← List.append_assoc]
    exact .inserted r vs ih (by rw [insertRecord_join, hi]) hvs
  | refused r e _ hi ih => exact .refused r e ih (by rw [insertRecord_join, hi])
  | entry u p flag m ct id _ hct hid ih =>
    rw [← List.append_assoc, ← join_append]
    exact .entry u p flag m ct id ih hct hid

/-- C88: two stores filled separately under one configuration and key and put together are a store that can be filled in one
go, with what the first holds followed by what the second holds: all that is said of such stores (C26 to C32) holds of it. -/
theorem C88_joined_history {a b kv : KV} {da db : List Stored} (ha : History E s a da) (hb : History E s b db)
    (hj : Joined a b kv) : History E s kv (da ++ db) := by
  rw [joined_iff.mp hj]; exact history_join ha hb

/-- C88: a query on a store filled by inserts with any other bytes put after its buckets is answered from the first; only if
the first knows nothing, from the others. -/
theorem C88_joined_answer (hc : NewClient E cfg.toConfig = .ok c) (hs : NewServer E cfg = .ok s)
    {a b kv : KV} {da : List Stored} (ha : History E s a da) (hj : Joined a b kv) (u p : Bytes) (r : ZMod c.suite.q) :
    (exchange E c s a u p r ≠ .ret NotInBreach none none → exchange E c s kv u p r = exchange E c s a u p r) ∧
    (exchange E c s a u p r = .ret NotInBreach none none → exchange E c s kv u p r = exchange E c s b u p r) := by
  rw [joined_iff.mp hj]
  rcases exchange_cases hc hs u p r with ⟨-, q, h⟩ | ⟨-, e, h⟩ | ⟨-, -, -, id, secret, -, -, h⟩
  · simp only [h, implies_true, and_self]
  · simp only [h, implies_true, and_self]
  · rw [h, h, h]
    obtain ⟨h1, h2, -⟩ := history_invariant hs ha
    have hwf : ∀ e ∈ (da.filter (inBucket E s (BucketIDToHex id))).map (storedRaw E cfg s), e.WF := by
      intro e he
      obtain ⟨x, hx, rfl⟩ := List.mem_map.mp he
      exact storedRaw_wf E cfg s x (h2 x (List.mem_filter.mp hx).1).1.2.2.2
    have ea := finalizeLoop_bucket E c.bucketEncryptor secret _ hwf []
    have ej := finalizeLoop_bucket E c.bucketEncryptor secret _ hwf (b.store (BucketIDToHex id))
    rw [List.append_nil] at ea
    have e1 : (a.join b).store (BucketIDToHex id) =
        Spec.bucket ((da.filter (inBucket E s (BucketIDToHex id))).map (storedRaw E cfg s)) ++ b.store (BucketIDToHex id) := by
      rw [← h1]; rfl
    rw [e1, ej, h1, ea]
    cases hf : firstMatch E.sha256 secret ((da.filter (inBucket E s (BucketIDToHex id))).map (storedRaw E cfg s)) with
    | none =>
      refine ⟨fun hne => absurd ?_ hne, fun _ => rfl⟩
      rw [finalizeLoop_end _ _ _ _ _ (by decide)]
    | some e =>
      refine ⟨fun _ => rfl, fun h' => ?_⟩
      have he : e ∈ (da.filter (inBucket E s (BucketIDToHex id))).map (storedRaw E cfg s) := List.mem_of_find?_eq_some hf
      obtain ⟨x, hx, rfl⟩ := List.mem_map.mp he
      obtain ⟨st, m, hm⟩ := (open_stored (E := E) (cfg := cfg) (s := s) x (h2 x (List.mem_filter.mp hx).1).1 secret).1
      dsimp only at h'
      rw [hm] at h'
      injection h' with _ h' _
      exact absurd h' (by simp)

/-- C88: in which order two stores are put together decides nothing but between two answers that both report something. -/
theorem C88_either_order (hc : NewClient E cfg.toConfig = .ok c) (hs : NewServer E cfg = .ok s)
    {a b kv kv' : KV} {da db : List Stored} (ha : History E s a da) (hb : History E s b db)
    (hj : Joined a b kv) (hj' : Joined b a kv') (u p : Bytes) (r : ZMod c.suite.q) :
    exchange E c s kv u p r = exchange E c s kv' u p r ∨
    (exchange E c s kv u p r = exchange E c s a u p r ∧ exchange E c s kv' u p r = exchange E c s b u p r ∧
      exchange E c s a u p r ≠ .ret NotInBreach none none ∧ exchange E c s b u p r ≠ .ret NotInBreach none none) := by
  have h1 := C88_joined_answer hc hs ha hj u p r
  have h2 := C88_joined_answer hc hs hb hj' u p r
  by_cases hn : exchange E c s a u p r = .ret NotInBreach none none
  · by_cases hm : exchange E c s b u p r = .ret NotInBreach none none
    · left; rw [h1.2 hn, h2.2 hm, hn, hm]
    · left; rw [h1.2 hn, h2.1 hm]
  · by_cases hm : exchange E c s b u p r = .ret NotInBreach none none
    · left; rw [h1.1 hn, h2.2 hm]
    · exact .inr ⟨h1.1 hn, h2.1 hm, hn, hm⟩

/-! ## Dividing a store by bucket -/

theorem fold_other (key : GoString) (recs : List Record)
    (h : ∀ r ∈ recs, ∀ id, s.bucketID E r.username = .ok id → key ≠ BucketIDToHex id) (hs : NewServer E cfg = .ok s) (kv : KV) :
    (recs.foldl (fun kv r => (insertRecord E s r kv).1) kv).store key = kv.store key := by
  induction recs generalizing kv with
  | nil => rfl
  | cons r recs ih =>
    rw [List.foldl_cons, ih (fun x hx => h x (List.mem_cons_of_mem _ hx))]
    have := C31_other_buckets hs r kv _ _ (Prod.mk.eta (p := insertRecord E s r kv)).symm key (h r (by simp))
    injection this

/-- A record goes to the bucket with this key. -/
def GoesTo (E : Ext) (s : Server) (key : GoString) (r : Record) : Prop :=
  ∃ id, s.bucketID E r.username = .ok id ∧ BucketIDToHex id = key

theorem fold_filter (hs : NewServer E cfg = .ok s) (key : GoString) (keep : Record → Bool) (recs : List Record)
    (h : ∀ r ∈ recs, GoesTo E s key r → keep r = true) (kv kv' : KV) (hkv : kv.store key = kv'.store key) :
    (recs.foldl (fun kv r => (insertRecord E s r kv).1) kv).store key =
      ((recs.filter keep).foldl (fun kv r => (insertRecord E s r kv).1) kv').store key := by
  induction recs generalizing kv kv' with
  | nil => exact hkv
  | cons r recs ih =>
    have h' : ∀ x ∈ recs, GoesTo E s key x → keep x = true := fun x hx => h x (List.mem_cons_of_mem _ hx)
    rw [List.foldl_cons, List.filter_cons]
    split
    · rw [List.foldl_cons]
      apply ih h'
      have a1 := insertRecord_join (E := E) (s := s) r kv newKVStore
      have a2 := insertRecord_join (E := E) (s := s) r kv' newKVStore
      rw [join_empty] at a1 a2
      rw [a1, a2]
      show kv.store key ++ _ = kv'.store key ++ _
      rw [hkv]
    · rename_i hk
      apply ih h'
      rw [← hkv]
      exact fold_other key [r] (by
        intro x hx id hid e
        obtain rfl := List.mem_singleton.mp hx
        exact hk (h x (by simp) ⟨id, hid, e.symm⟩)) hs kv

theorem handleRequest_congr (req : ClientRequest) (kv kv' : KV) (h : kv.get req.bucketID = kv'.get req.bucketID) :
    s.handleRequest req kv.get = s.handleRequest req kv'.get := by
  unfold Server.handleRequest
  rw [h]

/-- C88: records may be divided among servers by bucket. A server on which only some records have been inserted, but all of
those of the bucket asked for, gives exactly the reply of one with all records. -/
theorem C88_divided (hs : NewServer E cfg = .ok s) (recs : List Record) (keep : Record → Bool) (req : ClientRequest)
    (h : ∀ r ∈ recs, ∀ id, s.bucketID E r.username = .ok id → BucketIDToHex id = req.bucketID → keep r = true) :
    s.handleRequest req ((recs.filter keep).foldl (fun kv r => (insertRecord E s r kv).1) newKVStore).get =
      s.handleRequest req (recs.foldl (fun kv r => (insertRecord E s r kv).1) newKVStore).get := by
  apply handleRequest_congr
  show Res.ok _ = Res.ok _
  rw [fold_filter hs req.bucketID keep recs (fun r hr ⟨id, h1, h2⟩ => h r hr id h1 h2) newKVStore newKVStore rfl]

/-- C88: so a client is told the same by the server that has the bucket of its user. -/
theorem C88_divided_answer (hc : NewClient E cfg.toConfig = .ok c) (hs : NewServer E cfg = .ok s)
    (recs : List Record) (keep : Record → Bool) (u p : Bytes)
    (h : ∀ r ∈ recs, s.bucketID E r.username = s.bucketID E u → keep r = true) (b : ZMod c.suite.q) :
    exchange E c s ((recs.filter keep).foldl (fun kv r => (insertRecord E s r kv).1) newKVStore) u p b =
      exchange E c s (recs.foldl (fun kv r => (insertRecord E s r kv).1) newKVStore) u p b := by
  rcases exchange_cases hc hs u p b with ⟨-, q, h'⟩ | ⟨-, e, h'⟩ | ⟨-, -, -, id, secret, hid, -, h'⟩
  · rw [h', h']
  · rw [h', h']
  · rw [h', h', fold_filter hs (BucketIDToHex id) keep recs (fun r hr ⟨id', h1, h2⟩ => h r hr (by
      rw [h1, hid, BucketIDToHex_inj h2])) newKVStore newKVStore rfl]

open Classical in
/-- C88: the order of records matters only within a bucket: two lists of records that have, for every bucket, the same records
in the same order give the same store. -/
theorem C88_reordered (hs : NewServer E cfg = .ok s) (recs recs' : List Record)
    (h : ∀ id, recs.filter (fun r => s.bucketID E r.username = .ok id) =
      recs'.filter (fun r => s.bucketID E r.username = .ok id)) :
    recs.foldl (fun kv r => (insertRecord E s r kv).1) newKVStore =
      recs'.foldl (fun kv r => (insertRecord E s r kv).1) newKVStore := by
  apply KV.ext
  intro key
  by_cases hk : ∃ id, BucketIDToHex id = key
  · obtain ⟨id, rfl⟩ := hk
    have hb : ∀ l : List Record, ∀ r ∈ l, GoesTo E s (BucketIDToHex id) r →
        (fun r : Record => decide (s.bucketID E r.username = .ok id)) r = true := by
      rintro l r - ⟨id', h1, h2⟩
      rw [BucketIDToHex_inj h2] at h1
      exact decide_eq_true h1
    rw [fold_filter hs _ _ recs (hb recs) newKVStore newKVStore rfl, h,
      ← fold_filter hs _ _ recs' (hb recs') newKVStore newKVStore rfl]
  · have hn : ∀ l : List Record, ∀ r ∈ l, ∀ id, s.bucketID E r.username = .ok id → key ≠ BucketIDToHex id :=
      fun _ _ _ id _ e => hk ⟨id, e.symm⟩
    rw [fold_other key recs (hn recs) hs, fold_other key recs' (hn recs') hs]

/-! ## The server program -/

theorem loadLines_join (md : Bytes) (n : Int) (uv : Bool) (lines : List Bytes) (a b : KV) (i j k l : Nat) :
    loadLines E s md n uv lines (a.join b) (i + k) (j + l) =
      match loadLines E s md n uv lines b k l with
      | .done kv k' l' => .done (a.join kv) (i + k') (j + l')
      | .crashed p => .crashed p := by
  induction lines generalizing b k l with
  | nil => rfl
  | cons line lines ih =>
    unfold loadLines
    split
    · rw [insert_join]
      rcases insert E s _ _ md n uv b with ⟨kv, x | e | q⟩
      · exact ih kv (k + 1) l
      · exact ih kv k (l + 1)
      · rfl
    · exact ih b k (l + 1)

theorem isLines_lengths {file : Bytes} {ls : List Bytes} (h : IsLines file ls)
    (hw : ∀ before line after, file = before ++ line ++ after → 10 ∉ line → line.length ≤ 65535) :
    ∀ l ∈ ls, l.length ≤ 65535 := by
  induction h with
  | empty => simp
  | last l hne hl =>
    intro x hx
    obtain rfl := List.mem_singleton.mp hx
    exact hw [] x [] (by simp) hl
  | line l rest ls hl _ ih =>
    intro x hx
    rcases List.mem_cons.mp hx with rfl | hx
    · exact hw [] x (10 :: rest) (by simp) hl
    · exact ih (fun before line after e => hw (l ++ 10 :: before) line after (by rw [e]; simp)) x hx

theorem scanned_append {f : Bytes} (hw : WholeFile f) (g : Bytes) (chunk chunk₁ chunk₂ : Nat → Nat) :
    scannedLines chunk (f ++ g) = scannedLines chunk₁ f ++ scannedLines chunk₂ g := by
  obtain ⟨lf, hf⟩ := IsLines.exists f
  obtain ⟨lg, hg⟩ := IsLines.exists g
  have hall := isLines_lengths hf hw.2
  rw [scannedLines_eq chunk _ _ (isLines_append hf hw.1 hg), scannedLines_eq chunk₁ _ _ hf, scannedLines_eq chunk₂ _ _ hg]
  unfold seen
  rw [List.takeWhile_append_of_pos (fun x hx => decide_eq_true (hall x hx)),
    List.takeWhile_eq_self_iff.mpr (fun x hx => decide_eq_true (hall x hx)), List.map_append]

/-- C88: the server program on two files one after the other comes to the store, and the counters, of its runs on each of
them put together - for every way of reading the files in pieces - provided that the first consists of whole lines of at
most 65535 bytes. If it crashes on one of them, so it does on both. -/
theorem C88_files (args : ServerArgs) (key : PrivateKey) (stale : Nat → Nat → UInt8) (chunk chunk₁ chunk₂ : Nat → Nat)
    (f g : Bytes) (hw : WholeFile f) :
    (∀ s a n m s' b n' m', serverMain E { args with infile := some f } key stale chunk₁ = .serving s a n m →
      serverMain E { args with infile := some g } key stale chunk₂ = .serving s' b n' m' →
      s' = s ∧ ∃ kv, serverMain E { args with infile := some (f ++ g) } key stale chunk = .serving s kv (n + n') (m + m') ∧
        Joined a b kv) ∧
    (∀ q, serverMain E { args with infile := some f } key stale chunk₁ = .crashed q →
      serverMain E { args with infile := some (f ++ g) } key stale chunk = .crashed q) ∧
    (∀ s a n m q, serverMain E { args with infile := some f } key stale chunk₁ = .serving s a n m →
      serverMain E { args with infile := some g } key stale chunk₂ = .crashed q →
      serverMain E { args with infile := some (f ++ g) } key stale chunk = .crashed q) := by
  unfold serverMain
  dsimp only
  cases serverConfig E args.config key stale with
  | none => exact ⟨nofun, nofun, nofun⟩
  | some cfg =>
    dsimp only
    split
    · exact ⟨nofun, nofun, nofun⟩
    · cases hn : newCmdServer E cfg with
      | err e => exact ⟨nofun, nofun, nofun⟩
      | panic p => exact ⟨nofun, nofun, nofun⟩
      | ok s =>
        dsimp only
        have hkv : s.kv = newKVStore := by
          unfold newCmdServer at hn
          rcases hs : NewServer E cfg with x | e | q
          · rw [hs] at hn; injection hn with hn; rw [← hn]
          · rw [hs] at hn; cases hn
          · rw [hs] at hn; cases hn
        rw [hkv, scanned_append hw g chunk chunk₁ chunk₂, loadLines_append]
        cases h1 : loadLines E s.migpServer args.metadata args.numVariants args.usernameVariant
            (scannedLines chunk₁ f) newKVStore 0 0 with
        | crashed p => exact ⟨nofun, fun q hq => hq, nofun⟩
        | done a n m =>
          dsimp only
          have hj := loadLines_join (E := E) (s := s.migpServer) args.metadata args.numVariants args.usernameVariant
            (scannedLines chunk₂ g) a newKVStore n m 0 0
          rw [join_empty, Nat.add_zero, Nat.add_zero] at hj
          rw [hj]
          cases h2 : loadLines E s.migpServer args.metadata args.numVariants args.usernameVariant
              (scannedLines chunk₂ g) newKVStore 0 0 with
          | crashed p => exact ⟨nofun, nofun, fun _ _ _ _ q _ hq => hq⟩
          | done b n' m' =>
            refine ⟨?_, nofun, nofun⟩
            intro s₁ a₁ n₁ m₁ s₂ b₂ n₂ m₂ e1 e2
            injection e1 with e1 e3 e4 e5
            injection e2 with e2 e6 e7 e8
            subst e1 e2 e3 e4 e5 e6 e7 e8
            exact ⟨rfl, _, rfl, joined_iff.mpr rfl⟩

/-! ## Concrete cases -/

section concrete
open Example

/-- A bucket that was cut in the middle of an entry. -/
def cutStore : KV := ⟨fun k => ((insertRecord ext server ⟨ascii "user", ascii "abc", ascii "A", 0, false⟩ newKVStore).1.store k).take 10⟩

/-- C88: only whole buckets can be put together. Where a bucket was cut within an entry, without anything being noticed, what is
put after it is lost: the second store alone reports the password, the two together do not. -/
theorem C88_cut_false : ∃ (whole a b kv : KV) (da db : List Stored),
    History ext server whole da ∧ (∀ key, a.store key <+: whole.store key) ∧ History ext server b db ∧ Joined a b kv ∧
    exchange ext client server a (ascii "user") (ascii "password") 1 = .ret NotInBreach none none ∧
    exchange ext client server b (ascii "user") (ascii "password") 1 = .ret InBreach (some (ascii "B")) none ∧
    exchange ext client server kv (ascii "user") (ascii "password") 1 ≠ .ret InBreach (some (ascii "B")) none := by
  obtain ⟨kv₁, h₁⟩ := example_insert ⟨ascii "user", ascii "abc", ascii "A", 0, false⟩ newKVStore
    (by decide) (by decide) (by decide) (by decide) (by decide)
  obtain ⟨kv₂, h₂⟩ := example_insert ⟨ascii "user", ascii "password", ascii "B", 0, false⟩ newKVStore
    (by decide) (by decide) (by decide) (by decide) (by decide)
  have e₁ : (insertRecord ext server ⟨ascii "user", ascii "abc", ascii "A", 0, false⟩ newKVStore).1 = kv₁ := by rw [h₁]
  have e₂ : (insertRecord ext server ⟨ascii "user", ascii "password", ascii "B", 0, false⟩ newKVStore).1 = kv₂ := by rw [h₂]
  refine ⟨kv₁, cutStore, kv₂, cutStore.join kv₂, _, _, .inserted _ [] .start h₁ (by decide +kernel), ?_,
    .inserted _ [] .start h₂ (by decide +kernel), joined_iff.mpr rfl, ?_, ?_, ?_⟩
  · intro key
    unfold cutStore
    rw [e₁]
    exact List.take_prefix _ _
  · decide +kernel
  · rw [← e₂]; decide +kernel
  · rw [← e₂]; decide +kernel

/-- Records of two users in different buckets. -/
def recA : Record := ⟨ascii "user", ascii "abc", ascii "A", 0, false⟩
def recB : Record := ⟨ascii "user", ascii "abc", ascii "B", 0, false⟩
def recX : Record := ⟨ascii "x", ascii "y", ascii "X", 0, true⟩

theorem buckets_differ : server.bucketID ext (ascii "user") ≠ server.bucketID ext (ascii "x") := by decide +kernel

/-- C88_joined_history, C88_joined_answer, C88_either_order: two stores with the same credential and different metadata; the
answer is that of the store put first. -/
example : ∃ a b ab ba, History ext server a (recA.stored []) ∧ History ext server b (recB.stored []) ∧
    Joined a b ab ∧ Joined b a ba ∧ History ext server ab (recA.stored [] ++ recB.stored []) ∧
    exchange ext client server ab (ascii "user") (ascii "abc") 1 = .ret InBreach (some (ascii "A")) none ∧
    exchange ext client server ba (ascii "user") (ascii "abc") 1 = .ret InBreach (some (ascii "B")) none := by
  obtain ⟨a, ha⟩ := example_insert recA newKVStore (by decide) (by decide) (by decide) (by decide) (by decide)
  obtain ⟨b, hb⟩ := example_insert recB newKVStore (by decide) (by decide) (by decide) (by decide) (by decide)
  have ea : (insertRecord ext server recA newKVStore).1 = a := by rw [ha]
  have eb : (insertRecord ext server recB newKVStore).1 = b := by rw [hb]
  have h1 : History ext server a (recA.stored []) := .inserted _ [] .start ha (no_variants _)
  have h2 : History ext server b (recB.stored []) := .inserted _ [] .start hb (no_variants _)
  have xa : exchange ext client server a (ascii "user") (ascii "abc") 1 = .ret InBreach (some (ascii "A")) none := by
    rw [← ea]; decide +kernel
  have xb : exchange ext client server b (ascii "user") (ascii "abc") 1 = .ret InBreach (some (ascii "B")) none := by
    rw [← eb]; decide +kernel
  refine ⟨a, b, a.join b, b.join a, h1, h2, joined_iff.mpr rfl, joined_iff.mpr rfl,
    C88_joined_history h1 h2 (joined_iff.mpr rfl), ?_, ?_⟩
  · rw [(C88_joined_answer newClient_eq newServer_eq h1 (joined_iff.mpr rfl) _ _ _).1 (by rw [xa]; decide), xa]
  · rw [(C88_joined_answer newClient_eq newServer_eq h2 (joined_iff.mpr rfl) _ _ _).1 (by rw [xb]; decide), xb]

/-- C88_divided, C88_divided_answer: the server with the records of `user` only. -/
example : (∃ id, server.bucketID ext (ascii "user") = .ok id ∧ ∀ v blinded,
      server.handleRequest ⟨v, BucketIDToHex id, blinded⟩
        (([recX, recA].filter (fun r => r.username == ascii "user")).foldl (fun kv r => (insertRecord ext server r kv).1) newKVStore).get =
      server.handleRequest ⟨v, BucketIDToHex id, blinded⟩
        ([recX, recA].foldl (fun kv r => (insertRecord ext server r kv).1) newKVStore).get) ∧
    [recX, recA].filter (fun r => r.username == ascii "user") = [recA] ∧
    ∀ p b, exchange ext client server ([recA].foldl (fun kv r => (insertRecord ext server r kv).1) newKVStore) (ascii "user") p b =
      exchange ext client server ([recX, recA].foldl (fun kv r => (insertRecord ext server r kv).1) newKVStore) (ascii "user") p b := by
  have hne : ascii "x" ≠ ascii "user" := by decide
  have hfil : [recX, recA].filter (fun r => r.username == ascii "user") = [recA] := by
    show List.filter _ [recX, recA] = [recA]
    have h1 : (recX.username == ascii "user") = false := by decide
    have h2 : (recA.username == ascii "user") = true := by decide
    rw [List.filter_cons_of_neg (by simp [h1]), List.filter_cons_of_pos (by simp [h2]), List.filter_nil]
  refine ⟨?_, hfil, fun p b => ?_⟩
  · obtain ⟨id, hid⟩ : ∃ id, server.bucketID ext (ascii "user") = .ok id := by
      rcases bucketID_cases newServer_eq (ascii "user") with ⟨-, -, -, h⟩ | ⟨h, -⟩
      · exact h
      · exact absurd h (by decide)
    refine ⟨id, hid, fun v blinded => C88_divided newServer_eq _ _ _ ?_⟩
    intro r hr id' h1 h2
    rcases List.mem_cons.mp hr with rfl | hr
    · exact absurd (by rw [hid, ← BucketIDToHex_inj h2]; exact h1.symm) buckets_differ
    · obtain rfl := List.mem_singleton.mp hr; decide
  · rw [← hfil]
    apply C88_divided_answer newClient_eq newServer_eq
    intro r hr h
    rcases List.mem_cons.mp hr with rfl | hr
    · exact absurd h.symm buckets_differ
    · obtain rfl := List.mem_singleton.mp hr; decide

open Classical in
/-- C88_reordered: records of different users change places. -/
example : [recX, recA, recB].foldl (fun kv r => (insertRecord ext server r kv).1) newKVStore =
    [recA, recX, recB].foldl (fun kv r => (insertRecord ext server r kv).1) newKVStore := by
  apply C88_reordered newServer_eq
  intro id
  by_cases h : server.bucketID ext recX.username = .ok id
  · have : server.bucketID ext recA.username ≠ .ok id := fun h' => buckets_differ (h'.trans h.symm)
    simp [h, this]
  · by_cases h' : server.bucketID ext recA.username = .ok id <;>
      simp [List.filter_cons, h, h']

/-- C88_files: the server program on `user:abc`, on `x:y` and on both. -/
example (stale : Nat → Nat → UInt8) (chunk : Nat → Nat) : ∃ a b kv,
    serverMain ext ⟨none, false, ascii "A", 0, false, some (ascii "user:abc\n")⟩ ⟨7⟩ stale chunk = .serving server a 1 0 ∧
    serverMain ext ⟨none, false, ascii "A", 0, false, some (ascii "x:y")⟩ ⟨7⟩ stale chunk = .serving server b 1 0 ∧
    serverMain ext ⟨none, false, ascii "A", 0, false, some (ascii "user:abc\nx:y")⟩ ⟨7⟩ stale chunk = .serving server kv 2 0 ∧
    Joined a b kv := by
  have load : ∀ (f u p : Bytes), ReadsAs f [some (u, p)] → p.length ≤ 49152 → ∃ a,
      serverMain ext ⟨none, false, ascii "A", 0, false, some f⟩ ⟨7⟩ stale chunk = .serving server a 1 0 := by
    intro f u p hr hp
    obtain ⟨-, kv, -, h, -⟩ := C55_load_short (E := ext) (cfg := Example.cfg) (s := server)
      (args := ⟨none, false, ascii "A", 0, false, some f⟩) (key := ⟨7⟩) (stale := stale) (chunk := chunk)
      rfl newServer_eq rfl rfl (by decide) (by decide) example_tweak
      (show (ascii "A").length ≤ 8160 by decide) (show (0 : Int) ≤ 0 by decide) (show (0 : Int) ≤ maxSliceCap by decide) hr
      (by intro x hx; obtain rfl : x = (u, p) := by simpa [credentials] using hx
          exact hp)
    exact ⟨kv, h⟩
  obtain ⟨a, ha⟩ := load (ascii "user:abc\n") (ascii "user") (ascii "abc") ⟨[ascii "user:abc"], [ascii "user:abc"],
    .line (ascii "user:abc") [] _ (by decide) .empty, (by
      have : ([ascii "user:abc"] : List Bytes).takeWhile (fun l => l.length ≤ 65535) = [ascii "user:abc"] := by decide
      rw [this]; exact .cons (dropCR_chomped _) .nil), .cons ⟨rfl, by decide⟩ .nil⟩ (by decide)
  obtain ⟨b, hb⟩ := load (ascii "x:y") (ascii "x") (ascii "y") ⟨[ascii "x:y"], [ascii "x:y"],
    .last _ (by decide) (by decide), (by
      have : ([ascii "x:y"] : List Bytes).takeWhile (fun l => l.length ≤ 65535) = [ascii "x:y"] := by decide
      rw [this]; exact .cons (dropCR_chomped _) .nil), .cons ⟨rfl, by decide⟩ .nil⟩ (by decide)
  have hw : WholeFile (ascii "user:abc\n") := by
    refine ⟨.inr ⟨ascii "user:abc", rfl⟩, fun before line after e _ => ?_⟩
    have := congrArg List.length e
    rw [List.length_append, List.length_append] at this
    have h9 : (ascii "user:abc\n").length = 9 := by decide
    omega
  obtain ⟨-, kv, h, hj⟩ := (C88_files (E := ext) ⟨none, false, ascii "A", 0, false, none⟩ ⟨7⟩ stale chunk chunk chunk
    (ascii "user:abc\n") (ascii "x:y") hw).1 _ _ _ _ _ _ _ _ ha hb
  exact ⟨a, b, kv, ha, hb, h, hj⟩

end concrete

end Migp.Props
