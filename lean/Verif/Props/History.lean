import Verif.Lemmas.History
/-!
# C19, C26-C32: queries after any history of inserts

`History E s kv db` (Verif.Model.Exchange) says that the store `kv` has been reached from the empty one by `insert`
calls and single entries, and that `db` lists in order what has been stored, in the clear.
`exchange` is one run of the protocol: `Request`, `HandleRequest`, `Finalize`.
-/
namespace Migp.Props
open Migp.Mutator Migp.Spec

variable {E : Ext} {cfg : ServerConfig} {s : Server} {c : Client}

/-- A stored credential of the same bucket, different from `(u, p)`, whose 160-bit key tag is that of
`(u, p)`. -/
def TagCollision (E : Ext) (s : Server) (x : Stored) (u p : Bytes) : Prop :=
  ¬ (x.username = u ∧ x.password = p) ∧ s.bucketID E x.username = s.bucketID E u ∧
  ∃ k k', s.deriveBucketEntryKey E x.username x.password = .ok k ∧
    s.deriveBucketEntryKey E u p = .ok k' ∧ keyTag E.sha256 k = keyTag E.sha256 k'

theorem find_congr {α : Type} {f g : α → Bool} {l : List α} (h : ∀ x ∈ l, f x = g x) :
    l.find? f = l.find? g := by
  induction l with
  | nil => rfl
  | cons a l ih =>
    rw [List.find?_cons, List.find?_cons, h a (by simp), ih (fun x hx => h x (by simp [hx]))]

/-- The first stored entry of the bucket with the tag of `(u, p)`. -/
theorem exchange_eq (hc : NewClient E cfg.toConfig = .ok c) (hs : NewServer E cfg = .ok s)
    {kv : KV} {db : List Stored} (h : History E s kv db) (u p : Bytes) (r : ZMod c.suite.q)
    (hu : u.length ≤ 65536) (hp : p.length ≤ 65536) (h0 : 0 ≤ cfg.bucketIDBitSize)
    (h32 : cfg.bucketIDBitSize ≤ 32) (ht : Spec.tweak s.suite s.privateKey ≠ 0) (hr : r ≠ 0) :
    ∃ id, s.bucketID E u = .ok id ∧ exchange E c s kv u p r =
      match db.find? (fun x => inBucket E s (BucketIDToHex id) x &&
        decide (keyTag E.sha256 (entryKey E cfg s x.username x.password) =
          keyTag E.sha256 (entryKey E cfg s u p))) with
      | none => .ret NotInBreach none none
      | some x => openResult E (entryKey E cfg s u p) (storedRaw E cfg s x) := by
  rcases exchange_cases hc hs u p r with ⟨h1, -⟩ | ⟨h1, -⟩ | ⟨-, -, -, id, secret, h1, h2, h3⟩
  · omega
  · exact absurd h1 ht
  · refine ⟨id, h1, ?_⟩
    rw [h3 kv, h2 hr]
    exact history_search hs h _ _ _

/-- What opening a stored entry with a key of the same tag gives: some metadata; the stored flag and
metadata if the key is that of the entry. -/
theorem open_stored (x : Stored) (hx : Fits x) (secret : Bytes) :
    (∃ st m, openResult E secret (storedRaw E cfg s x) = .ret st (some m) none) ∧
    (secret = entryKey E cfg s x.username x.password →
      openResult E secret (storedRaw E cfg s x) =
        .ret (MetadataType.toBreachStatus x.flag) (some x.metadata) none) := by
  have hl := storedRaw_body_length E cfg s x hx.2.2.2
  have hm := hx.2.2.2
  unfold openResult
  rw [if_pos (by omega)]
  refine ⟨⟨_, _, rfl⟩, ?_⟩
  rintro rfl
  rw [storedRaw_open E cfg s x hx.2.2.2]

theorem fits_range (hs : NewServer E cfg = .ok s) {u : Bytes} {id : UInt32}
    (h : s.bucketID E u = .ok id) : 0 ≤ cfg.bucketIDBitSize ∧ cfg.bucketIDBitSize ≤ 32 := by
  rcases bucketID_cases hs u with ⟨-, h0, h32, -⟩ | ⟨-, p, hp⟩
  · exact ⟨h0, h32⟩
  · rw [h] at hp; cases hp

/-- C26: a credential that has been stored — as breached password, as variant, as username with empty
password, or as a single entry — is always found: the answer carries metadata and no error, whatever
else is stored and whatever the non-zero blind. -/
theorem C26_no_false_negative (hc : NewClient E cfg.toConfig = .ok c) (hs : NewServer E cfg = .ok s)
    {kv : KV} {db : List Stored} (h : History E s kv db) (x : Stored) (hx : x ∈ db)
    (r : ZMod c.suite.q) (hr : r ≠ 0) :
    ∃ status metadata,
      exchange E c s kv x.username x.password r = .ret status (some metadata) none := by
  obtain ⟨-, h2, h3⟩ := history_invariant hs h
  obtain ⟨hf, id, hid⟩ := h2 x hx
  have hb := fits_range hs hid
  obtain ⟨id', hid', he⟩ := exchange_eq hc hs h x.username x.password r hf.2.1 hf.2.2.1 hb.1 hb.2
    (h3 (List.ne_nil_of_mem hx)) hr
  rw [he]
  cases hfind : db.find? _ with
  | none =>
    have := List.find?_eq_none.mp hfind x hx
    simp [inBucket_ok hid'] at this
  | some y => exact (open_stored y (h2 y (List.mem_of_find?_eq_some hfind)).1 _).1

/-- C26: what a successful `insert` has stored is: the password, each variant that `Mutate` returns,
and (if requested) the empty password. -/
theorem C26_after_insert (hc : NewClient E cfg.toConfig = .ok c) (hs : NewServer E cfg = .ok s)
    {kv kv' : KV} {db : List Stored} (h : History E s kv db) (rec : Record)
    (hi : insertRecord E s rec kv = (kv', .ok ())) (r : ZMod c.suite.q) (hr : r ≠ 0) (p : Bytes)
    (hp : p = rec.password ∨
      (∃ vs, mutate dasRules rec.password rec.numVariants = .ok vs ∧ p ∈ vs) ∨
      (p = [] ∧ rec.withUsername = true)) :
    ∃ status metadata, exchange E c s kv' rec.username p r = .ret status (some metadata) none := by
  obtain ⟨id, vs, -, -, -, hvs, -⟩ := C43_insert_appends hs rec kv kv' hi
  have h' := History.inserted rec vs h hi hvs
  have key : ∃ f, (⟨rec.username, p, f, rec.metadata⟩ : Stored) ∈ db ++ rec.stored vs := by
    rcases hp with rfl | ⟨vs', e, hp⟩ | ⟨rfl, hw⟩
    · exact ⟨1, by simp [Record.stored]⟩
    · rw [hvs] at e; injection e with e; subst e
      refine ⟨2, ?_⟩
      simp only [Record.stored, List.mem_append, List.mem_map, List.mem_singleton]
      exact .inr (.inl (.inr ⟨p, hp, rfl⟩))
    · exact ⟨3, by simp [Record.stored, hw]⟩
  obtain ⟨f, hf⟩ := key
  exact C26_no_false_negative hc hs h' _ hf r hr

/-- C27: if the answer to a query carries metadata, the credential has been stored, or a stored
credential of the same bucket is different and has the same key tag. -/
theorem C27_no_false_positive (hc : NewClient E cfg.toConfig = .ok c) (hs : NewServer E cfg = .ok s)
    {kv : KV} {db : List Stored} (h : History E s kv db) (u p : Bytes) (r : ZMod c.suite.q)
    (hr : r ≠ 0) (status : BreachStatus) (metadata : Bytes) (err : Option Err)
    (hq : exchange E c s kv u p r = .ret status (some metadata) err) :
    (∃ x ∈ db, x.username = u ∧ x.password = p) ∨ ∃ x ∈ db, TagCollision E s x u p := by
  rcases exchange_cases hc hs u p r with ⟨-, q, h1⟩ | ⟨-, e, h1⟩ | ⟨hu, hp, ht, id, secret, h1, h2, h3⟩
  · rw [h1 kv] at hq; cases hq
  · rw [h1 kv] at hq; cases hq
  · rw [h3 kv, h2 hr, history_search hs h] at hq
    split at hq
    · cases hq
    · rename_i x hx
      have hm := List.mem_of_find?_eq_some hx
      have hpx := List.find?_some hx
      obtain ⟨-, g2, -⟩ := history_invariant hs h
      obtain ⟨hf, id', hid'⟩ := g2 x hm
      rw [inBucket_ok hid'] at hpx
      simp only [Bool.and_eq_true, beq_iff_eq, decide_eq_true_eq] at hpx
      by_cases heq : x.username = u ∧ x.password = p
      · exact .inl ⟨x, hm, heq⟩
      · refine .inr ⟨x, hm, heq, ?_, _, _, deriveKey_ok hs _ _ hf.2.1 hf.2.2.1 ht,
          deriveKey_ok hs u p hu hp ht, hpx.2⟩
        rw [hid', h1, BucketIDToHex_inj hpx.1]

/-- C28: absent tag collisions with the queried credential, a query answers exactly what looking up
the earliest stored entry for that credential gives: its flag's status and its metadata, and
`NotInBreach` without metadata if there is none. (The remaining hypotheses say that the request does not panic and the
server's key is usable: see `C02_request_panics_iff`, `C17_errors`.) -/
theorem C28_ideal_lookup (hc : NewClient E cfg.toConfig = .ok c) (hs : NewServer E cfg = .ok s)
    {kv : KV} {db : List Stored} (h : History E s kv db) (u p : Bytes) (r : ZMod c.suite.q)
    (hu : u.length ≤ 65536) (hp : p.length ≤ 65536) (h0 : 0 ≤ cfg.bucketIDBitSize)
    (h32 : cfg.bucketIDBitSize ≤ 32) (ht : Spec.tweak s.suite s.privateKey ≠ 0) (hr : r ≠ 0)
    (hno : ∀ x ∈ db, ¬ TagCollision E s x u p) :
    exchange E c s kv u p r =
      match lookup db u p with
      | none => .ret NotInBreach none none
      | some x => .ret (MetadataType.toBreachStatus x.flag) (some x.metadata) none := by
  obtain ⟨id, hid, he⟩ := exchange_eq hc hs h u p r hu hp h0 h32 ht hr
  obtain ⟨-, g2, -⟩ := history_invariant hs h
  have e : db.find? (fun x => inBucket E s (BucketIDToHex id) x &&
        decide (keyTag E.sha256 (entryKey E cfg s x.username x.password) =
          keyTag E.sha256 (entryKey E cfg s u p))) = lookup db u p := by
    unfold lookup
    apply find_congr
    intro x hx
    obtain ⟨hf, id', hid'⟩ := g2 x hx
    rw [inBucket_ok hid']
    apply Bool.eq_iff_iff.mpr
    simp only [Bool.and_eq_true, beq_iff_eq, decide_eq_true_eq]
    constructor
    · rintro ⟨h1, h2⟩
      by_contra hne
      exact hno x hx ⟨hne, by rw [hid', hid, BucketIDToHex_inj h1], _, _,
        deriveKey_ok hs _ _ hf.2.1 hf.2.2.1 ht, deriveKey_ok hs u p hu hp ht, h2⟩
    · rintro ⟨h1, h2⟩
      rw [h1] at hid'
      rw [hid'] at hid
      injection hid with hid
      rw [hid, h1, h2]
      exact ⟨rfl, rfl⟩
  rw [he, e]
  cases hl : lookup db u p with
  | none => rfl
  | some x =>
    have hx := List.mem_of_find?_eq_some hl
    have hxp := List.find?_some hl
    simp only [decide_eq_true_eq] at hxp
    exact (open_stored x (g2 x hx).1 _).2 (by rw [hxp.1, hxp.2])

/-- Search results with metadata do not change when the bucket grows. -/
theorem finalizeLoop_stable (enc : BucketEncryptor) (secret a b : Bytes) (status : BreachStatus)
    (metadata : Bytes) (h : finalizeLoop E enc secret a 0 = .ret status (some metadata) none) :
    finalizeLoop E enc secret (a ++ b) 0 = .ret status (some metadata) none := by
  obtain ⟨es, tail, hwf, ha, hcase⟩ := C25_every_bucket E enc secret a
  have hf : ∃ e, Spec.firstMatch E.sha256 secret es = some e ∧
      openResult E secret e = .ret status (some metadata) none := by
    rcases hcase with ⟨-, hcase⟩ | ⟨_, _, _, _, _, _, _, hcase⟩ <;> rw [h] at hcase
    all_goals
      cases hm : Spec.firstMatch E.sha256 secret es with
      | none => rw [hm] at hcase; cases hcase
      | some e => rw [hm] at hcase; exact ⟨e, rfl, hcase.symm⟩
  obtain ⟨e, h1, h2⟩ := hf
  rw [ha, List.append_assoc, finalizeLoop_bucket E enc secret es hwf, h1]
  exact h2

/-- C29: once a query is answered with metadata, the answer stays the same in every store whose
buckets are extensions of the present ones. -/
theorem C29_stable (hc : NewClient E cfg.toConfig = .ok c) (hs : NewServer E cfg = .ok s)
    (kv kv' : KV) (hext : ∀ key, kv.store key <+: kv'.store key) (u p : Bytes) (r : ZMod c.suite.q)
    (status : BreachStatus) (metadata : Bytes)
    (hq : exchange E c s kv u p r = .ret status (some metadata) none) :
    exchange E c s kv' u p r = .ret status (some metadata) none := by
  rcases exchange_cases hc hs u p r with ⟨-, q, h1⟩ | ⟨-, e, h1⟩ | ⟨-, -, -, id, secret, h1, -, h3⟩
  · rw [h1 kv] at hq; cases hq
  · rw [h1 kv] at hq; cases hq
  · rw [h3 kv] at hq
    rw [h3 kv']
    obtain ⟨b, hb⟩ := hext (BucketIDToHex id)
    rw [← hb]
    exact finalizeLoop_stable _ _ _ _ _ _ hq

theorem insert_extends (hs : NewServer E cfg = .ok s) (rec : Record) (kv kv' : KV) (res : Res Unit)
    (h : insertRecord E s rec kv = (kv', res)) (key : GoString) : kv.store key <+: kv'.store key := by
  rcases C43_prefix_always hs rec kv kv' res h with rfl | ⟨id, vs, n, es, old, h1, -, -, h3, h4, h5⟩
  · exact List.prefix_refl _
  · by_cases hk : key = BucketIDToHex id
    · unfold KV.get at h3 h4
      injection h3 with h3
      injection h4 with h4
      rw [hk, h3, h4]
      exact List.prefix_append _ _
    · have := h5 key hk
      unfold KV.get at this
      injection this with this
      rw [this]

/-- C29: in particular any number of inserts of anything, whatever their outcome (also those that
panic part-way), never change an answer that carries metadata: no upgrade of the status, no update of
the metadata. No assumption on how the store was filled. -/
theorem C29_inserts (hc : NewClient E cfg.toConfig = .ok c) (hs : NewServer E cfg = .ok s)
    (kv : KV) (recs : List Record) (u p : Bytes) (r : ZMod c.suite.q)
    (status : BreachStatus) (metadata : Bytes)
    (hq : exchange E c s kv u p r = .ret status (some metadata) none) :
    exchange E c s (recs.foldl (fun kv rec => (insertRecord E s rec kv).1) kv) u p r =
      .ret status (some metadata) none := by
  refine C29_stable hc hs kv _ ?_ u p r status metadata hq
  clear hq
  induction recs generalizing kv with
  | nil => exact fun _ => List.prefix_refl _
  | cons rec recs ih =>
    intro key
    exact (insert_extends hs rec kv _ _ rfl key).trans (ih _ key)

/-- C31: an insert for a username of another bucket, whatever its outcome, changes no answer at all. -/
theorem C31_other_queries (hc : NewClient E cfg.toConfig = .ok c) (hs : NewServer E cfg = .ok s)
    (rec : Record) (kv kv' : KV) (res : Res Unit) (h : insertRecord E s rec kv = (kv', res))
    (u p : Bytes) (hb : s.bucketID E u ≠ s.bucketID E rec.username) (r : ZMod c.suite.q) :
    exchange E c s kv' u p r = exchange E c s kv u p r := by
  rcases exchange_cases hc hs u p r with ⟨-, q, h1⟩ | ⟨-, e, h1⟩ | ⟨-, -, -, id, secret, h1, -, h3⟩
  · rw [h1 kv, h1 kv']
  · rw [h1 kv, h1 kv']
  · rw [h3 kv, h3 kv']
    have := C31_other_buckets hs rec kv kv' res h (BucketIDToHex id) (by
      intro id' hid' e
      apply hb
      rw [h1, hid', BucketIDToHex_inj e])
    unfold KV.get at this
    injection this with this
    rw [this]

/-- C32: inserting a record whose entries have all been stored before — directly before or at any
earlier time — changes no answer to any query, with or without tag collisions. -/
theorem C32_reinsert (hc : NewClient E cfg.toConfig = .ok c) (hs : NewServer E cfg = .ok s)
    {kv kv' : KV} {db : List Stored} (h : History E s kv db) (rec : Record) (vs : List Bytes)
    (hvs : mutate dasRules rec.password rec.numVariants = .ok vs) (hbefore : rec.stored vs ⊆ db)
    (hi : insertRecord E s rec kv = (kv', .ok ())) (u p : Bytes) (r : ZMod c.suite.q) :
    exchange E c s kv' u p r = exchange E c s kv u p r := by
  rcases exchange_cases hc hs u p r with ⟨-, q, h1⟩ | ⟨-, e, h1⟩ | ⟨-, -, -, id, secret, h1, -, h3⟩
  · rw [h1 kv, h1 kv']
  · rw [h1 kv, h1 kv']
  · rw [h3 kv, h3 kv', history_search hs h, history_search hs (.inserted rec vs h hi hvs),
      List.find?_append]
    cases hf : db.find? (fun x => inBucket E s (BucketIDToHex id) x &&
        decide (keyTag E.sha256 (entryKey E cfg s x.username x.password) = keyTag E.sha256 secret)) with
    | some x => rfl
    | none =>
      have : (rec.stored vs).find? (fun x => inBucket E s (BucketIDToHex id) x &&
          decide (keyTag E.sha256 (entryKey E cfg s x.username x.password) =
            keyTag E.sha256 secret)) = none := by
        apply List.find?_eq_none.mpr
        intro x hx
        exact List.find?_eq_none.mp hf x (hbefore hx)
      rw [this]
      rfl

/-- C32: inserting twice in a row. -/
theorem C32_twice (hc : NewClient E cfg.toConfig = .ok c) (hs : NewServer E cfg = .ok s)
    {kv kv₁ kv₂ : KV} {db : List Stored} (h : History E s kv db) (rec : Record)
    (h1 : insertRecord E s rec kv = (kv₁, .ok ())) (h2 : insertRecord E s rec kv₁ = (kv₂, .ok ()))
    (u p : Bytes) (r : ZMod c.suite.q) :
    exchange E c s kv₂ u p r = exchange E c s kv₁ u p r ∧
    ∃ id added, s.bucketID E rec.username = .ok id ∧ 25 ≤ added.length ∧
      kv₁.get (BucketIDToHex id) = (kv.get (BucketIDToHex id) >>= fun b => .ok (b ++ added)) ∧
      kv₂.get (BucketIDToHex id) = (kv₁.get (BucketIDToHex id) >>= fun b => .ok (b ++ added)) := by
  obtain ⟨id, vs, entries, old, g1, g2, g3, g4, g5, g6, g7, -⟩ := C43_insert_appends hs rec kv kv₁ h1
  obtain ⟨id', vs', entries', old', k1, k2, k3, k4, k5, k6, k7, -⟩ :=
    C43_insert_appends hs rec kv₁ kv₂ h2
  rw [g1] at k1; injection k1 with k1; subst k1
  rw [g2] at k2; injection k2 with k2; subst k2
  have he : entries = entries' := by
    have := g3.symm.trans k3
    exact List.map_injective_iff.mpr (fun a b e => by injection e) this
  subst he
  refine ⟨C32_reinsert hc hs (.inserted rec vs h h1 g2) rec vs g2 (List.subset_append_right _ _) h2
    u p r, id, entries.flatten, g1, ?_, ?_, ?_⟩
  · match entries, g4, g5 with
    | [], g4, _ => simp only [List.length_nil] at g4; omega
    | e :: es, _, g5 =>
      have := g5 e (by simp)
      simp only [List.flatten_cons, List.length_append]
      omega
  · rw [g7, g6]; rfl
  · rw [k7, k6]; rfl

/-! ## C19: bucket identifiers are looked up verbatim -/

/-- C19: in a reachable store, only keys of exactly eight lower-case hex digits hold anything. -/
theorem C19_only_canonical (hs : NewServer E cfg = .ok s) {kv : KV} {db : List Stored}
    (h : History E s kv db) (key : GoString)
    (hk : ¬ (key.length = 8 ∧ ∀ ch ∈ key, IsLowerHex ch)) : kv.get key = .ok [] := by
  obtain ⟨h1, h2, -⟩ := history_invariant hs h
  unfold KV.get
  rw [h1 key]
  have : db.filter (inBucket E s key) = [] := by
    apply List.filter_eq_nil_iff.mpr
    intro x hx
    obtain ⟨-, id, hid⟩ := h2 x hx
    rw [inBucket_ok hid]
    intro e
    simp only [beq_iff_eq] at e
    apply hk
    rw [← e]
    unfold BucketIDToHex
    exact ⟨by rw [hexEncode_length]; rfl, hexEncode_lower _⟩
  rw [this]
  rfl

/-- C19: so a request with a bucket ID in any other form — upper case, other padding — is answered
(if it is hex at all) with an empty bucket, whatever has been stored. -/
theorem C19_other_forms_miss (hs : NewServer E cfg = .ok s) {kv : KV} {db : List Stored}
    (h : History E s kv db) (req : ClientRequest) (resp : ServerResponse)
    (hk : ¬ (req.bucketID.length = 8 ∧ ∀ ch ∈ req.bucketID, IsLowerHex ch))
    (hr : s.handleRequest req kv.get = .ok resp) : resp.bucketContents = [] := by
  obtain ⟨-, -, -, g, contents, -, h2, h3⟩ := (C17_ok_iff _ _ _ _).mp hr
  rw [C19_only_canonical hs h _ hk] at h2
  injection h2 with h2
  rw [h3, ← h2]

/-- C19: such requests are accepted: for every server with a usable key there are, for an upper-case
and for an odd-size ID, requests that succeed. -/
theorem C19_accepted (s : Server) (ht : Spec.tweak s.suite s.privateKey ≠ 0) (kv : KV)
    (id : GoString) (hid : IsHexString id) :
    ∃ req : ClientRequest, req.bucketID = id ∧ (s.handleRequest req kv.get).IsOk := by
  have hlt := s.version.toNat_lt
  refine ⟨⟨UInt32.ofNat s.version.toNat, id, s.suite.ser 0⟩, rfl, _,
    (C17_ok_iff _ _ _ _).mpr ⟨?_, ht, hid, 0, _, s.suite.de_ser 0, rfl, rfl⟩⟩
  simp only [UInt32.toNat_ofNat']; omega

example : IsHexString (ascii "0A1B2C3D") ∧ IsHexString (ascii "ab") ∧
    ¬ (∀ ch ∈ ascii "0A1B2C3D", IsLowerHex ch) := by
  unfold IsHexString IsLowerHex; decide

end Migp.Props
