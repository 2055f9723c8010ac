import Verif.Spec.Pieces
import Verif.Props.Mismatch
import Verif.Props.Replay
/-!
# C90: changing the configuration of an existing store

An operator has a store filled under one configuration and wants to serve it under another, without the credentials, which he
may not have any more.
-/
namespace Migp.Props
open Spec

variable {E : Ext} {cfg : ServerConfig} {s s' : Server} {c c' : Client}

/-- C90: entries depend on nothing of the configuration but the slow hash, the suite and the private key. -/
theorem C90_entries {cfg' : ServerConfig} (hs : NewServer E cfg = .ok s) (hs' : NewServer E cfg' = .ok s')
    (hslow : cfg'.slowHasherID = cfg.slowHasherID) (hS : cfg'.oprfSuite = cfg.oprfSuite) (hk : cfg'.privateKey = cfg.privateKey)
    (u p : Bytes) (flag : MetadataType) (metadata : Bytes) :
    s'.encryptBucketEntry E u p flag metadata = s.encryptBucketEntry E u p flag metadata := by
  obtain ⟨slow, S, -, -, h1, h2, -, rfl⟩ := newServer_ok hs
  obtain ⟨slow', S', -, -, h1', h2', -, rfl⟩ := newServer_ok hs'
  rw [hslow, h1] at h1'
  rw [hS, h2] at h2'
  injection h1' with h1'
  injection h2' with h2'
  subst h1' h2'
  unfold Server.encryptBucketEntry
  unfold Server.deriveBucketEntryKey
  dsimp only
  rw [hk]

/-- C90: the version may be changed at will, at the server and its clients together: every query is answered from the same
store as before (`rand` are the blinds drawn, which depend on the suite only). -/
theorem C90_version (hc : NewClient E cfg.toConfig = .ok c) (hs : NewServer E cfg = .ok s) (v : UInt16)
    (hc' : NewClient E { cfg.toConfig with version := v } = .ok c') (hs' : NewServer E { cfg with version := v } = .ok s')
    (kv : KV) (u p : Bytes) (rand : (S : Suite) → ZMod S.q) :
    exchange E c' s' kv u p (rand c'.suite) = exchange E c s kv u p (rand c.suite) := by
  obtain ⟨slow, S, -, -, h1, h2, -, rfl⟩ := newServer_ok hs
  obtain ⟨slow₁, S₁, -, -, h3, h4, rfl⟩ := newClient_ok hc
  obtain ⟨slow', S', -, -, h1', h2', -, rfl⟩ := newServer_ok hs'
  obtain ⟨slow₁', S₁', -, -, h3', h4', rfl⟩ := newClient_ok hc'
  dsimp only at h1' h2' h3' h4'
  rw [h1] at h1' h3 h3'
  rw [h2] at h2' h4 h4'
  injection h1' with h1'; injection h3 with h3; injection h3' with h3'
  injection h2' with h2'; injection h4 with h4; injection h4' with h4'
  subst h1' h2' h3 h4 h3' h4'
  have hv : ∀ v : UInt16, ¬ (UInt16.ofNat (UInt32.ofNat v.toNat).toNat ≠ v) := by
    intro v
    rw [ne_eq, not_not, ← UInt16.toNat_inj, UInt16.toNat_ofNat', UInt32.toNat_ofNat']
    have h3 := v.toNat_lt
    omega
  unfold exchange Client.request
  dsimp only
  unfold Client.bucketID
  dsimp only
  rcases serializeUsernamePassword u p with ser | e | q <;> try rfl
  simp only [Res.ok_bind]
  rcases slow.hash E ser with input | e | q <;> try rfl
  simp only [Res.ok_bind]
  rcases (NewSHA256BucketHasher.hash E u >>= fun h => bucketHashToID h cfg.bucketIDBitSize) with id | e | q <;> try rfl
  simp only [Res.ok_bind]
  unfold Server.handleRequest
  dsimp only
  rw [if_neg (hv _), if_neg (hv _)]
  rcases S.evaluate cfg.privateKey (S.blind input (rand S)) OprfInfo with el | e | q <;> try rfl
  simp only [Res.ok_bind]
  rcases hexDecode (BucketIDToHex id) with _ | b <;> try rfl
  unfold KV.get
  simp only [Res.ok_bind]
  unfold ClientRequestContext.finalize
  dsimp only
  rw [if_neg (hv _), if_neg (hv _)]

/-- C90: the number of bucket bits decides nothing but which bucket a username belongs to: a server with another number of
bits gives the same reply to every request. -/
theorem C90_replies {b : Int} (hs : NewServer E cfg = .ok s) (hs' : NewServer E { cfg with bucketIDBitSize := b } = .ok s')
    (req : ClientRequest) (kv : KV) : s'.handleRequest req kv.get = s.handleRequest req kv.get := by
  obtain ⟨slow, S, -, -, h1, h2, -, rfl⟩ := newServer_ok hs
  obtain ⟨slow', S', -, -, h1', h2', -, rfl⟩ := newServer_ok hs'
  dsimp only at h1' h2'
  rw [h1] at h1'
  rw [h2] at h2'
  injection h1' with h1'
  injection h2' with h2'
  subst h1' h2'
  rfl

/-- C90: with `k` bits fewer a username's bucket is numbered by the leading bits of its number. -/
theorem C90_bits {b : Int} (hs : NewServer E cfg = .ok s) (hs' : NewServer E { cfg with bucketIDBitSize := b } = .ok s')
    (h0 : 0 ≤ b) (hb : b ≤ cfg.bucketIDBitSize) (h32 : cfg.bucketIDBitSize ≤ 32) (u : Bytes) (hu : u.length ≤ 65536) :
    ∃ id id', s.bucketID E u = .ok id ∧ s'.bucketID E u = .ok id' ∧ id'.toNat < 2 ^ b.toNat ∧
      id'.toNat = id.toNat / 2 ^ (cfg.bucketIDBitSize.toNat - b.toNat) := by
  obtain ⟨id, h1, h2, -⟩ := (C03_server_bucketID cfg s hs u).1 hu (by omega) h32
  obtain ⟨id', h1', h2', h3'⟩ := (C03_server_bucketID _ s' hs' u).1 hu h0 (by dsimp only; omega)
  refine ⟨id, id', h1, h1', h3', ?_⟩
  obtain ⟨low, h4, h5⟩ := bucketNumber_split E u (k := b.toNat) (m := cfg.bucketIDBitSize.toNat) (by omega) (by omega)
  dsimp only at h2'
  rw [h2, h4, h2', Nat.add_comm, Nat.add_mul_div_right _ _ (by omega), Nat.div_eq_of_lt h5, Nat.zero_add]

theorem find_flatMap {α β : Type} [DecidableEq α] (f : β → Bool) (g : α → List β) (l : List α) (i : α) (hi : i ∈ l)
    (h : ∀ j ∈ l, j ≠ i → (g j).find? f = none) : (l.flatMap g).find? f = (g i).find? f := by
  induction l with
  | nil => cases hi
  | cons a l ih =>
    rw [List.flatMap_cons, List.find?_append]
    by_cases ha : a = i
    · subst ha
      cases hf : (g a).find? f with
      | some x => rfl
      | none =>
        rw [Option.none_or]
        by_cases hm : a ∈ l
        · rw [ih hm (fun j hj => h j (List.mem_cons_of_mem _ hj)), hf]
        · rw [List.find?_flatMap]
          apply List.findSome?_eq_none_iff.mpr
          intro j hj
          exact h j (List.mem_cons_of_mem _ hj) (by rintro rfl; exact hm hj)
    · rw [h a (by simp) ha, Option.none_or]
      exact ih ((List.mem_cons.mp hi).resolve_left (fun e => ha e.symm)) (fun j hj => h j (List.mem_cons_of_mem _ hj))

/-- C90: a store can be given fewer bucket bits without knowing anything that is in it, by putting together the buckets whose
numbers have the same leading bits: every query is then answered as it was before, unless a stored credential of another
bucket has the 20-byte tag of the one asked for. -/
theorem C90_merged {b : Int} (hc : NewClient E cfg.toConfig = .ok c) (hs : NewServer E cfg = .ok s)
    (hc' : NewClient E { cfg.toConfig with bucketIDBitSize := b } = .ok c')
    (hs' : NewServer E { cfg with bucketIDBitSize := b } = .ok s')
    (h0 : 0 ≤ b) (hb : b ≤ cfg.bucketIDBitSize) (h32 : cfg.bucketIDBitSize ≤ 32)
    {kv kv' : KV} {db : List Stored} (h : History E s kv db)
    (hm : Merged b.toNat (cfg.bucketIDBitSize.toNat - b.toNat) kv kv')
    (u p : Bytes) (r : ZMod c.suite.q) (r' : ZMod c'.suite.q) (hr : r ≠ 0) (hr' : r' ≠ 0)
    (hu : u.length ≤ 65536) (hp : p.length ≤ 65536) (ht : Spec.tweak s.suite s.privateKey ≠ 0) :
    exchange E c' s' kv' u p r' = exchange E c s kv u p r ∨
    ∃ x ∈ db, s.bucketID E x.username ≠ s.bucketID E u ∧ TagCollision E s' x u p := by
  by_cases hcol : ∃ x ∈ db, s.bucketID E x.username ≠ s.bucketID E u ∧ TagCollision E s' x u p
  · exact .inr hcol
  left
  have hsame : s'.suite = s.suite ∧ s'.privateKey = s.privateKey := by
    obtain ⟨slow, S, -, -, h1, h2, -, rfl⟩ := newServer_ok hs
    obtain ⟨slow', S', -, -, h1', h2', -, rfl⟩ := newServer_ok hs'
    rw [h2] at h2'
    injection h2' with h2'
    exact ⟨h2'.symm, rfl⟩
  have hkey : ∀ u p, entryKey E { cfg with bucketIDBitSize := b } s' u p = entryKey E cfg s u p := by
    intro u p
    unfold entryKey
    rw [hsame.1, hsame.2]
  have ht' : Spec.tweak s'.suite s'.privateKey ≠ 0 := by rw [hsame.1, hsame.2]; exact ht
  have henc : c'.bucketEncryptor = c.bucketEncryptor := by
    obtain ⟨_, _, _, _, _, _, rfl⟩ := newClient_ok hc
    obtain ⟨_, _, _, _, _, _, rfl⟩ := newClient_ok hc'
    rfl
  rcases exchange_cases hc hs u p r with ⟨h1, -⟩ | ⟨h1, -⟩ | ⟨-, -, -, id, secret, hid, hsec, he⟩
  · omega
  · exact absurd h1 ht
  rcases exchange_cases (cfg := { cfg with bucketIDBitSize := b }) hc' hs' u p r' with
    ⟨h1, -⟩ | ⟨h1, -⟩ | ⟨-, -, -, id', secret', hid', hsec', he'⟩
  · dsimp only at h1; omega
  · exact absurd h1 ht'
  rw [he, he', hsec hr, hsec' hr', hkey, henc]
  obtain ⟨i1, i1', e1, e1', hlt, hdiv⟩ := C90_bits hs hs' h0 hb h32 u hu
  rw [hid] at e1; injection e1 with e1; subst e1
  rw [hid'] at e1'; injection e1' with e1'; subst e1'
  obtain ⟨g1, g2, -⟩ := history_invariant hs h
  generalize hk : cfg.bucketIDBitSize.toNat - b.toNat = k at hm hdiv
  obtain ⟨xs, hxs, hget⟩ := hm id'.toNat hlt
  injection hget with hget
  rw [UInt32.ofNat_toNat] at hget
  -- the pieces
  have hpieces : xs = (List.range (2 ^ k)).map (fun low =>
      Spec.bucket ((db.filter (inBucket E s (BucketIDToHex (UInt32.ofNat (id'.toNat * 2 ^ k + low))))).map (storedRaw E cfg s))) := by
    clear hget
    generalize List.range (2 ^ k) = l at hxs ⊢
    induction hxs with
    | nil => rfl
    | cons hx _ ih =>
      injection hx with hx
      rw [List.map_cons, ← ih, ← g1, hx]
  have hflat : kv'.store (BucketIDToHex id') = Spec.bucket ((List.range (2 ^ k)).flatMap (fun low =>
      (db.filter (inBucket E s (BucketIDToHex (UInt32.ofNat (id'.toNat * 2 ^ k + low))))).map (storedRaw E cfg s))) := by
    rw [hget, hpieces]
    clear hget hpieces hxs
    induction List.range (2 ^ k) with
    | nil => rfl
    | cons a l ih => rw [List.map_cons, List.flatten_cons, ih, List.flatMap_cons, bucket_append]
  have hwf : ∀ key, ∀ e ∈ (db.filter (inBucket E s key)).map (storedRaw E cfg s), e.WF := by
    intro key e he
    obtain ⟨x, hx, rfl⟩ := List.mem_map.mp he
    exact storedRaw_wf E cfg s x (g2 x (List.mem_filter.mp hx).1).1.2.2.2
  have f1 := finalizeLoop_bucket E c.bucketEncryptor (entryKey E cfg s u p) _ (hwf (BucketIDToHex id)) []
  have f2 := finalizeLoop_bucket E c.bucketEncryptor (entryKey E cfg s u p) ((List.range (2 ^ k)).flatMap (fun low =>
      (db.filter (inBucket E s (BucketIDToHex (UInt32.ofNat (id'.toNat * 2 ^ k + low))))).map (storedRaw E cfg s)))
    (by intro e he
        obtain ⟨low, -, he⟩ := List.mem_flatMap.mp he
        exact hwf _ e he) []
  rw [List.append_nil] at f1 f2
  rw [hflat, f2, g1, f1]
  have hidlow : UInt32.ofNat (id'.toNat * 2 ^ k + id.toNat % 2 ^ k) = id := by
    rw [hdiv, Nat.mul_comm, Nat.div_add_mod, UInt32.ofNat_toNat]
  have hfind : firstMatch E.sha256 (entryKey E cfg s u p) ((List.range (2 ^ k)).flatMap (fun low =>
      (db.filter (inBucket E s (BucketIDToHex (UInt32.ofNat (id'.toNat * 2 ^ k + low))))).map (storedRaw E cfg s))) =
      firstMatch E.sha256 (entryKey E cfg s u p) ((db.filter (inBucket E s (BucketIDToHex id))).map (storedRaw E cfg s)) := by
    unfold firstMatch
    rw [find_flatMap _ _ _ (id.toNat % 2 ^ k) (List.mem_range.mpr (Nat.mod_lt _ (Nat.two_pow_pos k))), hidlow]
    intro low hlow hne
    apply List.find?_eq_none.mpr
    intro e hemem htag
    obtain ⟨x, hx, rfl⟩ := List.mem_map.mp hemem
    obtain ⟨hxdb, hin⟩ := List.mem_filter.mp hx
    obtain ⟨hf, idx, hidx⟩ := g2 x hxdb
    rw [inBucket_ok hidx, beq_iff_eq] at hin
    have hlow' := List.mem_range.mp hlow
    have hbound : id'.toNat * 2 ^ k + low < 2 ^ 32 := by
      have a1 : id'.toNat * 2 ^ k + low < (id'.toNat + 1) * 2 ^ k := by rw [Nat.add_mul]; omega
      have a2 : (id'.toNat + 1) * 2 ^ k ≤ 2 ^ b.toNat * 2 ^ k := Nat.mul_le_mul_right _ (by omega)
      rw [← Nat.pow_add] at a2
      have a3 : 2 ^ (b.toNat + k) ≤ 2 ^ 32 := Nat.pow_le_pow_right (by decide) (by omega)
      omega
    have hidxn : idx.toNat = id'.toNat * 2 ^ k + low := by
      rw [BucketIDToHex_inj hin, UInt32.toNat_ofNat', Nat.mod_eq_of_lt hbound]
    have hdiff : s.bucketID E x.username ≠ s.bucketID E u := by
      rw [hidx, hid]
      intro e
      injection e with e
      rw [e] at hidxn
      apply hne
      rw [hidxn, Nat.add_comm, Nat.add_mul_mod_self_right, Nat.mod_eq_of_lt hlow']
    apply hcol
    refine ⟨x, hxdb, hdiff, ?_, ?_, _, _, deriveKey_ok hs' _ _ hf.2.1 hf.2.2.1 ht', deriveKey_ok hs' u p hu hp ht', ?_⟩
    · rintro ⟨e, -⟩
      exact hdiff (by rw [e])
    · obtain ⟨i2, i2', e2, e2', -, hdiv2⟩ := C90_bits hs hs' h0 hb h32 x.username hf.2.1
      rw [hidx] at e2; injection e2 with e2; subst e2
      rw [e2', hid']
      congr 1
      apply UInt32.toNat_inj.mp
      rw [hdiv2, hk, hidxn, Nat.add_comm, Nat.add_mul_div_right _ _ (Nat.two_pow_pos k), Nat.div_eq_of_lt hlow', Nat.zero_add]
    · simp only [decide_eq_true_eq] at htag
      change keyTag E.sha256 (entryKey E { cfg with bucketIDBitSize := b } s' x.username x.password) =
        keyTag E.sha256 (entryKey E { cfg with bucketIDBitSize := b } s' u p)
      rw [hkey, hkey]
      exact htag
  rw [hfind]

/-- C90: served under another number of bits, with its buckets as they are, the store is as good as empty for a username,
unless the username's hash begins with as many zeros as the larger number of bits, or 20-byte tags of different usernames
coincide; no error is reported. -/
theorem C90_not_merged {b : Int} (hs : NewServer E cfg = .ok s)
    (hc' : NewClient E { cfg.toConfig with bucketIDBitSize := b } = .ok c')
    (hs' : NewServer E { cfg with bucketIDBitSize := b } = .ok s') (hne : b ≠ cfg.bucketIDBitSize)
    (h0 : 0 ≤ b) (hb : b ≤ 32) (g0 : 0 ≤ cfg.bucketIDBitSize) (h32 : cfg.bucketIDBitSize ≤ 32)
    {kv : KV} {db : List Stored} (h : History E s kv db) (u p : Bytes) (r' : ZMod c'.suite.q) (hr' : r' ≠ 0)
    (hu : u.length ≤ 65536) (hp : p.length ≤ 65536) (ht : Spec.tweak s.suite s.privateKey ≠ 0)
    (hz : bucketNumber E (max cfg.bucketIDBitSize.toNat b.toNat) u ≠ 0) :
    exchange E c' s' kv u p r' = .ret NotInBreach none none ∨
    ∃ x ∈ db, x.username ≠ u ∧ Meets E s.suite cfg { cfg.toConfig with bucketIDBitSize := b } x u p := by
  have : exchange E c' s' kv u p r' = exchange E c' s kv u p r' := by
    unfold exchange
    split
    · rfl
    · rfl
    · rw [C90_replies hs hs']
  rw [this]
  exact (C82_bits hc' hs rfl rfl rfl hne h u p r' hr' hu hp h0 hb g0 h32 ht).1 hz

/-- C90: every store can be merged so, for every number of leading bits. -/
theorem C90_can_merge (b k : Nat) (hb : b ≤ 32) (kv : KV) : ∃ kv', Merged b k kv kv' := by
  classical
  refine ⟨⟨fun key => if h : ∃ n, n < 2 ^ b ∧ key = BucketIDToHex (UInt32.ofNat n) then
    ((List.range (2 ^ k)).map (fun low => kv.store (BucketIDToHex (UInt32.ofNat (h.choose * 2 ^ k + low))))).flatten else []⟩, ?_⟩
  intro n hn
  refine ⟨(List.range (2 ^ k)).map (fun low => kv.store (BucketIDToHex (UInt32.ofNat (n * 2 ^ k + low)))), ?_, ?_⟩
  · rw [List.forall₂_map_right_iff]
    exact List.forall₂_same.mpr fun _ _ => rfl
  · have h : ∃ m, m < 2 ^ b ∧ BucketIDToHex (UInt32.ofNat n) = BucketIDToHex (UInt32.ofNat m) := ⟨n, hn, rfl⟩
    have hlt : 2 ^ b ≤ 2 ^ 32 := Nat.pow_le_pow_right (by decide) hb
    have hch : h.choose = n := by
      obtain ⟨a1, a2⟩ := h.choose_spec
      have := congrArg UInt32.toNat (BucketIDToHex_inj a2)
      rw [UInt32.toNat_ofNat', UInt32.toNat_ofNat', Nat.mod_eq_of_lt (by omega), Nat.mod_eq_of_lt (by omega)] at this
      exact this.symm
    unfold KV.get
    dsimp only
    rw [dif_pos h, hch]

/-! ## Concrete cases -/

section concrete
open Example

theorem oneStore_answer : exchange ext client server oneStore (ascii "user") (ascii "abc") 1 =
    .ret InBreach (some (ascii "A")) none := by decide +kernel

/-- C90_version: the store of the example served under version 7. -/
example (rand : (S : Suite) → ZMod S.q) (h : rand client.suite = 1) :
    exchange ext { client with version := 7 } { server with version := 7 } oneStore (ascii "user") (ascii "abc")
      (rand client.suite) = .ret InBreach (some (ascii "A")) none := by
  rw [← oneStore_answer, ← h]
  exact C90_version newClient_eq newServer_eq 7 rfl rfl oneStore (ascii "user") (ascii "abc") rand

/-- C90_entries: a server with another version and another number of bits. -/
example (u p m : Bytes) (flag : MetadataType) :
    Server.encryptBucketEntry ext { server with version := 7, bucketIDBitSize := 3 } u p flag m =
      server.encryptBucketEntry ext u p flag m :=
  C90_entries newServer_eq (cfg' := { Example.cfg with version := 7, bucketIDBitSize := 3 }) rfl rfl rfl rfl u p flag m

/-- C90_bits: the bucket of `user` has number 773886 with 20 bits, and 1511 with 11. -/
example : ∃ id', Server.bucketID ext { server with bucketIDBitSize := 11 } (ascii "user") = .ok id' ∧ id'.toNat = 1511 := by
  obtain ⟨id, id', h1, h2, -, h3⟩ := C90_bits (b := 11) newServer_eq
    (s' := { server with bucketIDBitSize := 11 }) rfl (by decide) (by decide) (by decide) (ascii "user") (by decide)
  refine ⟨id', h2, ?_⟩
  have : id = 773886 := by
    have h4 : server.bucketID ext (ascii "user") = .ok 773886 := by decide +kernel
    rw [h4] at h1
    injection h1 with h1
    exact h1.symm
  rw [h3, this]
  decide

/-- C90_merged, C90_not_merged: the store of the example, which has 20 bits, with 11: merged it reports the password, as it
is it does not. -/
example : ∃ kv', Merged 11 9 oneStore kv' ∧
    exchange ext { client with bucketIDBitSize := 11 } { server with bucketIDBitSize := 11 } kv' (ascii "user") (ascii "abc") 5 =
      .ret InBreach (some (ascii "A")) none ∧
    exchange ext { client with bucketIDBitSize := 11 } { server with bucketIDBitSize := 11 } oneStore (ascii "user") (ascii "abc") 5 =
      .ret NotInBreach none none := by
  obtain ⟨kv', hm⟩ := C90_can_merge 11 9 (by decide) oneStore
  refine ⟨kv', hm, ?_, ?_⟩
  · rw [← oneStore_answer]
    rcases C90_merged (b := 11) newClient_eq newServer_eq (c' := { client with bucketIDBitSize := 11 })
      (s' := { server with bucketIDBitSize := 11 }) rfl rfl (by decide) (by decide) (by decide) oneStore_history hm
      (ascii "user") (ascii "abc") 1 5 (by decide) (by decide) (by decide) (by decide) example_tweak with h | ⟨x, hx, h, -⟩
    · exact h
    · obtain rfl := List.mem_singleton.mp hx
      exact absurd rfl h
  · rcases C90_not_merged (b := 11) newServer_eq (c' := { client with bucketIDBitSize := 11 })
      (s' := { server with bucketIDBitSize := 11 }) rfl rfl (by decide) (by decide) (by decide) (by decide) (by decide)
      oneStore_history (ascii "user") (ascii "abc") 5 (by decide) (by decide) (by decide) example_tweak
      (by decide +kernel) with h | ⟨x, hx, h, -⟩
    · exact h
    · obtain rfl := List.mem_singleton.mp hx
      exact absurd rfl h

end concrete

end Migp.Props
