import Verif.Props.Main
import Verif.Props.Programs
import Verif.Props.Witness2
/-!
# C76: how large the store and the replies get
-/
namespace Migp.Props
open Spec Mutator

variable {E : Ext} {cfg : ServerConfig} {s : Server}

/-- The bytes one stored credential takes: a header of 25 bytes and its metadata. -/
def _root_.Migp.Spec.Stored.size (x : Stored) : Nat := 25 + x.metadata.length

/-- The bytes a list of stored credentials takes. -/
def _root_.Migp.Spec.sizeOf (db : List Stored) : Nat := (db.map Stored.size).sum

/-- The length of the bucket a store returns for a key. -/
def bucketLen (kv : KV) (key : GoString) : Nat :=
  match kv.get key with
  | .ok contents => contents.length
  | _ => 0

theorem bucketLen_eq (kv : KV) (key : GoString) : bucketLen kv key = (kv.store key).length := rfl

theorem bucket_storedRaw_length (xs : List Stored) (h : ∀ x ∈ xs, Fits x) :
    (Spec.bucket (xs.map (storedRaw E cfg s))).length = Spec.sizeOf xs := by
  induction xs with
  | nil => rfl
  | cons x xs ih =>
    have hx := h x (by simp)
    have h1 := ih fun y hy => h y (by simp [hy])
    have hl := storedRaw_body_length E cfg s x hx.2.2.2
    have ht : (storedRaw E cfg s x).tag.length = 20 := keyTag_length E _
    have h2 : Spec.bucket ((x :: xs).map (storedRaw E cfg s)) =
        (storedRaw E cfg s x).bytes ++ Spec.bucket (xs.map (storedRaw E cfg s)) := by simp [Spec.bucket]
    rw [h2, List.length_append, h1]
    simp only [Spec.RawEntry.bytes, Spec.len32, List.length_append, List.length_cons, List.length_nil, Stored.size,
      Spec.sizeOf, List.map_cons, List.sum_cons]
    omega

/-- C76: the size of a bucket, after any history: 25 bytes and the metadata for every credential stored whose username
has this bucket. -/
theorem C76_bucket (hs : NewServer E cfg = .ok s) {kv : KV} {db : List Stored} (h : History E s kv db)
    (id : UInt32) :
    ∃ contents, kv.get (BucketIDToHex id) = .ok contents ∧
      contents.length = Spec.sizeOf (db.filter fun x => s.bucketID E x.username = .ok id) := by
  obtain ⟨h1, h2, -⟩ := history_invariant hs h
  refine ⟨_, rfl, ?_⟩
  rw [h1, bucket_storedRaw_length _ fun x hx => (h2 x (List.mem_filter.mp hx).1).1]
  congr 1
  apply List.filter_congr
  intro x hx
  obtain ⟨-, id', hid'⟩ := h2 x hx
  rw [inBucket_ok hid', hid']
  apply Bool.eq_iff_iff.mpr
  rw [beq_iff_eq, decide_eq_true_eq]
  exact ⟨fun e => by rw [BucketIDToHex_inj e], fun e => by rw [Res.ok.inj e]⟩

theorem ne_zero_of_suite_eq {S T : Suite} (e : S = T) (x : ZMod S.q) (hx : x ≠ 0) (g : ZMod T.q)
    (h : T.de (S.ser x) = some g) : g ≠ 0 := by
  subst e
  rw [S.de_ser] at h
  rwa [← Option.some.inj h]

/-- C76: so the reply to a request is four bytes, an element, 25 bytes for each such credential, and its metadata: the
number of credentials of a bucket can be read off the size of the reply, and nothing else about the query can. -/
theorem C76_reply {c : Client} (hc : NewClient E cfg.toConfig = .ok c) (hs : NewServer E cfg = .ok s) {kv : KV}
    {db : List Stored} (h : History E s kv db) (u p : Bytes) (r : ZMod c.suite.q) (hr : r ≠ 0) (req : ClientRequest)
    (ctx : ClientRequestContext) (hreq : c.request E u p r = .ok (req, ctx))
    (hH : c.suite.hashToElement ctx.input ≠ 0) (resp : ServerResponse)
    (hresp : s.handleRequest req kv.get = .ok resp) :
    ∃ wire, resp.marshalBinary = .ok wire ∧ wire.length = 4 + s.suite.elemLen +
      Spec.sizeOf (db.filter fun x => s.bucketID E x.username = s.bucketID E u) := by
  obtain ⟨id, hid, hb⟩ := C14_request_bucket cfg c s hc hs u p r req ctx hreq
  obtain ⟨-, ht, -, g, contents, hg, hk, rfl⟩ := (C17_ok_iff _ _ _ _).mp hresp
  obtain ⟨contents', hk', hl⟩ := C76_bucket hs h id
  rw [hb, hk'] at hk
  obtain rfl := Res.ok.inj hk
  have hel : (s.suite.ser ((Spec.tweak s.suite s.privateKey)⁻¹ * g)).length = s.suite.elemLen := by
    obtain ⟨ser, -, hh⟩ := Res.bind_eq_ok.mp hreq
    obtain ⟨inp, -, hh⟩ := Res.bind_eq_ok.mp hh
    obtain ⟨id', -, hh⟩ := Res.bind_eq_ok.mp hh
    injection hh with hh
    injection hh with h1 h2
    subst h1 h2
    have hg0 : g ≠ 0 := ne_zero_of_suite_eq (suite_eq hc hs) _ (mul_ne_zero hr hH) g hg
    exact s.suite.ser_len _ (mul_ne_zero (inv_ne_zero ht) hg0)
  refine ⟨_, rfl, ?_⟩
  rw [List.length_append, List.length_append, hel, hl, hid]
  rfl

/-- C76: all buckets together: the sizes of any distinct buckets add up to at most what the stored credentials take,
and exactly to that if no bucket of a stored username is left out. -/
theorem C76_total (hs : NewServer E cfg = .ok s) {kv : KV} {db : List Stored} (h : History E s kv db)
    (keys : List GoString) (hk : keys.Nodup) :
    (keys.map (bucketLen kv)).sum ≤ Spec.sizeOf db ∧
    ((∀ x ∈ db, ∀ id, s.bucketID E x.username = .ok id → BucketIDToHex id ∈ keys) →
      (keys.map (bucketLen kv)).sum = Spec.sizeOf db) := by
  obtain ⟨h1, h2, -⟩ := history_invariant hs h
  have e : ∀ key, bucketLen kv key = Spec.sizeOf (db.filter (inBucket E s key)) := fun key => by
    rw [bucketLen_eq, h1, bucket_storedRaw_length _ fun x hx => (h2 x (List.mem_filter.mp hx).1).1]
  have e' : keys.map (bucketLen kv) = keys.map fun key => Spec.sizeOf (db.filter (inBucket E s key)) :=
    List.map_congr_left fun key _ => e key
  rw [e']
  clear e e' h1 h
  induction db with
  | nil =>
    have : (keys.map fun key => Spec.sizeOf (([] : List Stored).filter (inBucket E s key))).sum = 0 := by
      rw [List.sum_eq_zero_iff_forall_eq_nat]
      intro x hx
      obtain ⟨k, -, rfl⟩ := List.mem_map.mp hx
      rfl
    exact ⟨by rw [this]; exact Nat.zero_le _, fun _ => this⟩
  | cons x db ih =>
    obtain ⟨i1, i2⟩ := ih fun y hy => h2 y (by simp [hy])
    obtain ⟨-, id, hid⟩ := h2 x (by simp)
    have split : ∀ keys : List GoString, keys.Nodup →
        (keys.map fun key => Spec.sizeOf ((x :: db).filter (inBucket E s key))).sum =
          (if BucketIDToHex id ∈ keys then x.size else 0) +
            (keys.map fun key => Spec.sizeOf (db.filter (inBucket E s key))).sum := by
      intro keys hn
      induction keys with
      | nil => rfl
      | cons k ks ihk =>
        obtain ⟨hnk, hn⟩ := List.nodup_cons.mp hn
        rw [List.map_cons, List.sum_cons, List.map_cons, List.sum_cons, ihk hn, List.filter_cons, inBucket_ok hid]
        by_cases hh : BucketIDToHex id = k
        · subst hh
          rw [if_neg hnk, if_pos (List.mem_cons_self ..), if_pos (beq_self_eq_true _)]
          simp only [Spec.sizeOf, List.map_cons, List.sum_cons]
          omega
        · rw [if_neg (by rw [beq_iff_eq]; exact hh)]
          have : (BucketIDToHex id ∈ k :: ks) ↔ BucketIDToHex id ∈ ks := by
            rw [List.mem_cons]; exact ⟨fun h => h.resolve_left hh, .inr⟩
          simp only [this]
          omega
    have hs' : Spec.sizeOf (x :: db) = x.size + Spec.sizeOf db := by
      simp only [Spec.sizeOf, List.map_cons, List.sum_cons]
    rw [split keys hk, hs']
    refine ⟨?_, fun hall => ?_⟩
    · split <;> omega
    · rw [if_pos (hall x (by simp) id hid), i2 fun y hy => hall y (by simp [hy])]

theorem sizeOf_append (a b : List Stored) : Spec.sizeOf (a ++ b) = Spec.sizeOf a + Spec.sizeOf b := by
  simp [Spec.sizeOf]

theorem sizeOf_stored (r : Record) (vs : List Bytes) :
    Spec.sizeOf (r.stored vs) = (1 + vs.length + if r.withUsername then 1 else 0) * (25 + r.metadata.length) := by
  unfold Record.stored Spec.sizeOf
  rw [List.map_append, List.map_append, List.sum_append, List.sum_append, List.map_map]
  have : (vs.map (Stored.size ∘ fun v => (⟨r.username, v, 2, r.metadata⟩ : Stored))).sum =
      vs.length * (25 + r.metadata.length) := by
    induction vs with
    | nil => simp
    | cons v vs ih => rw [List.map_cons, List.sum_cons, ih, List.length_cons, Nat.add_mul]; simp [Stored.size]; omega
  rw [this]
  generalize hT : 25 + r.metadata.length = T
  split <;> simp only [Stored.size, List.map_cons, List.map_nil, List.sum_cons, List.sum_nil, Nat.add_mul, Nat.one_mul,
    hT, Nat.add_zero]

/-- C76: what the server program holds after loading a file of credentials: for each line that is a credential the
password, its variants and (with `-username-variant`) the username, each with 25 bytes and the metadata; so the store
never takes more than `(num-variants + 2) * (25 + metadata)` bytes a line, nor more than 325 entries a line, whatever
`-num-variants`. -/
theorem C76_load {args : ServerArgs} {key : PrivateKey} {stale : Nat → Nat → UInt8} {chunk : Nat → Nat}
    {file : Bytes} (hcfg : serverConfig E args.config key stale = some cfg) (hs : NewServer E cfg = .ok s)
    (hd : args.dumpConfig = false) (hf : args.infile = some file)
    (h0 : 0 ≤ cfg.bucketIDBitSize) (h32 : cfg.bucketIDBitSize ≤ 32)
    (ht : Spec.tweak s.suite s.privateKey ≠ 0) (hm : args.metadata.length ≤ 8160)
    (hn0 : 0 ≤ args.numVariants) (hn1 : args.numVariants ≤ maxSliceCap)
    {parts : List (Option (Bytes × Bytes))} (hp : ReadsAs file parts)
    (hlen : ∀ x ∈ credentials parts, x.2.length ≤ 49152) (keys : List GoString) (hk : keys.Nodup) :
    ∃ (variants : Bytes → List Bytes) (kv : KV), (∀ p, mutate dasRules p args.numVariants = .ok (variants p)) ∧
      serverMain E args key stale chunk =
        .serving s kv (credentials parts).length (parts.length - (credentials parts).length) ∧
      (keys.map (bucketLen kv)).sum ≤ ((credentials parts).map fun x =>
        (1 + (variants x.2).length + if args.usernameVariant then 1 else 0) * (25 + args.metadata.length)).sum ∧
      ((∀ x ∈ credentials parts, ∀ id, s.bucketID E x.1 = .ok id → BucketIDToHex id ∈ keys) →
        (keys.map (bucketLen kv)).sum = ((credentials parts).map fun x =>
        (1 + (variants x.2).length + if args.usernameVariant then 1 else 0) * (25 + args.metadata.length)).sum) ∧
      (keys.map (bucketLen kv)).sum ≤
        (credentials parts).length * (min args.numVariants.toNat 323 + 2) * (25 + args.metadata.length) := by
  obtain ⟨variants, kv, h1, h2, h3⟩ := C55_load_short (chunk := chunk) hcfg hs hd hf h0 h32 ht hm hn0 hn1 hp hlen
  have h4 := (C76_total hs h3 keys hk).1
  have h5 : ∀ creds : List (Bytes × Bytes),
      Spec.sizeOf (storedAll args.metadata args.numVariants args.usernameVariant variants creds) =
      (creds.map fun x =>
        (1 + (variants x.2).length + if args.usernameVariant then 1 else 0) * (25 + args.metadata.length)).sum := by
    intro creds
    induction creds with
    | nil => rfl
    | cons x xs ih =>
      rw [storedAll, List.flatMap_cons, sizeOf_append, sizeOf_stored, List.map_cons, List.sum_cons, ← ih, storedAll]
  have h6 : ∀ creds : List (Bytes × Bytes), (creds.map fun x =>
        (1 + (variants x.2).length + if args.usernameVariant then 1 else 0) * (25 + args.metadata.length)).sum ≤
      creds.length * (min args.numVariants.toNat 323 + 2) * (25 + args.metadata.length) := by
    intro creds
    induction creds with
    | nil => simp
    | cons x xs ih =>
      rw [List.map_cons, List.sum_cons, List.length_cons, Nat.succ_mul, Nat.add_mul (xs.length * _)]
      have hv := C33_distinct x.2 args.numVariants _ (h1 x.2)
      have : (1 + (variants x.2).length + if args.usernameVariant then 1 else 0) ≤ min args.numVariants.toNat 323 + 2 := by
        have := hv.1; have := hv.2.1
        split <;> omega
      have := Nat.mul_le_mul_right (25 + args.metadata.length) this
      exact (Nat.add_le_add this ih).trans_eq (Nat.add_comm _ _)
  refine ⟨variants, kv, h1, h2, ?_, fun hall => ?_, ?_⟩
  · rw [h5] at h4; exact h4
  · rw [← h5]
    refine (C76_total hs h3 keys hk).2 fun x hx id hid => ?_
    obtain ⟨cr, hcr, hx⟩ := List.mem_flatMap.mp hx
    rw [(mem_stored hx).1] at hid
    exact hall cr hcr id hid
  · rw [h5] at h4; exact le_trans h4 (h6 _)

/-! ## Concrete cases -/

/-- C76_load: the file of `C60_example`, one credential with two variants and one bad line, and the bucket of its
user: 3 entries of 26 bytes. -/
example (stale : Nat → Nat → UInt8) (chunk : Nat → Nat) (id : UInt32)
    (hid : Example.server.bucketID Example.ext (ascii "user") = .ok id) :
    ∃ kv, serverMain Example.ext ⟨none, false, ascii "A", 2, false, some (ascii "user:password1\r\nbroken\n")⟩ ⟨7⟩
        stale chunk = .serving Example.server kv 1 1 ∧ bucketLen kv (BucketIDToHex id) = 78 := by
  obtain ⟨variants, kv, h1, h2, -, h4, -⟩ := C76_load (E := Example.ext) (cfg := Example.cfg) (s := Example.server)
    (args := ⟨none, false, ascii "A", 2, false, some (ascii "user:password1\r\nbroken\n")⟩) (key := ⟨7⟩)
    (stale := stale) (chunk := chunk) rfl Example.newServer_eq rfl rfl (by decide) (by decide) example_tweak (by decide)
    (by decide) (by decide) example_reads.1 (by decide) [BucketIDToHex id] (List.nodup_singleton _)
  refine ⟨kv, h2, ?_⟩
  have h5 := h4 fun x hx id' hid' => by
    have : x = (ascii "user", ascii "password1") := List.mem_singleton.mp hx
    rw [this, hid] at hid'
    rw [Res.ok.inj hid']
    exact List.mem_singleton.mpr rfl
  have h6 : (variants (ascii "password1")).length = 2 := by
    have h7 : ∃ vs, mutate dasRules (ascii "password1") 2 = .ok vs ∧ vs.length = 2 :=
      ⟨[ascii "Password1", ascii "password"], by decide +kernel, rfl⟩
    obtain ⟨vs, h7, h8⟩ := h7
    rw [← Res.ok.inj (h7.symm.trans (h1 (ascii "password1")))]
    exact h8
  have h9 : bucketLen kv (BucketIDToHex id) + 0 = (1 + (variants (ascii "password1")).length + 0) * 26 + 0 := h5
  rw [h6] at h9
  exact h9

/-- C76_bucket, C76_reply, C76_total: any query to the example store (three entries of one user, 26 bytes each): the
reply has 115 bytes if it is of the bucket of that user, and 37 otherwise. -/
example (r : ZMod Example.client.suite.q) (hr : r ≠ 0) (u p : Bytes) (hu : u.length ≤ 65536) (hp : p.length ≤ 65536) :
    ∃ (kv : KV) (req : ClientRequest) (ctx : ClientRequestContext) (resp : ServerResponse) (wire : Bytes),
      Example.client.request Example.ext u p r = .ok (req, ctx) ∧
      Example.server.handleRequest req kv.get = .ok resp ∧ resp.marshalBinary = .ok wire ∧
      wire.length = 37 + if Example.server.bucketID Example.ext (ascii "user") = Example.server.bucketID Example.ext u
        then 78 else 0 := by
  obtain ⟨kv, -, hh⟩ := example_history
  obtain ⟨req, ctx, resp, h1, h2⟩ := example_request kv u p hu hp r
  obtain ⟨wire, h3, h4⟩ := C76_reply Example.newClient_eq Example.newServer_eq hh u p r hr req ctx h1
    (by
      obtain ⟨ser, -, hh⟩ := Res.bind_eq_ok.mp h1
      obtain ⟨inp, -, hh⟩ := Res.bind_eq_ok.mp hh
      obtain ⟨id', -, hh⟩ := Res.bind_eq_ok.mp hh
      injection hh with hh
      injection hh with h1 h2
      subst h2
      exact toy_hash_ne_zero _) resp h2
  refine ⟨kv, req, ctx, resp, wire, h1, h2, h3, ?_⟩
  rw [h4]
  have : (4 + Example.server.suite.elemLen) = 37 := rfl
  rw [this]
  congr 1
  by_cases h : Example.server.bucketID Example.ext (ascii "user") = Example.server.bucketID Example.ext u
  · simp only [List.filter_cons, h, decide_true, if_true, List.filter_nil]
    rfl
  · simp only [List.filter_cons, h, decide_false, Bool.false_eq_true, if_false, List.filter_nil]
    rfl

end Migp.Props
