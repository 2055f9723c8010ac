import Verif.Spec.Rotation
import Verif.Spec.HttpConc
import Verif.Props.Pieces
import Verif.Props.Reconfigure
/-!
# C92: stores filled under several keys

An operator changes the private key (or the slow hash or suite) of a service whose store he keeps, or fills one store from
several services.
-/
namespace Migp.Props
open Spec

variable {E : Ext} {cfg : ServerConfig} {s : Server} {c : Client} {bits : Int}

/-- Is this entry stored under this bucket identifier? -/
def inShared (E : Ext) (key : GoString) (e : ServerConfig × Stored) : Bool :=
  match NewServer E e.1 with
  | .ok s => inBucket E s key e.2
  | _ => false

/-- Its bytes. -/
def sharedRaw (E : Ext) (e : ServerConfig × Stored) : RawEntry :=
  match NewServer E e.1 with
  | .ok s => storedRaw E e.1 s e.2
  | _ => ⟨[], 0, []⟩

theorem inShared_ok (hs : NewServer E cfg = .ok s) (key : GoString) (x : Stored) :
    inShared E key (cfg, x) = inBucket E s key x := by
  unfold inShared; dsimp only; rw [hs]

theorem sharedRaw_ok (hs : NewServer E cfg = .ok s) (x : Stored) : sharedRaw E (cfg, x) = storedRaw E cfg s x := by
  unfold sharedRaw; dsimp only; rw [hs]

theorem shared_append (hs : NewServer E cfg = .ok s) {kv : KV} {db : List (ServerConfig × Stored)} {xs : List Stored} {u : Bytes}
    {id : UInt32} (ih : ∀ key, kv.store key = Spec.bucket ((db.filter (inShared E key)).map (sharedRaw E)))
    (hx : ∀ x ∈ xs, x.username = u) (hf : ∀ x ∈ xs, Fits x) (hid : s.bucketID E u = .ok id) (key : GoString) :
    (kv.append (BucketIDToHex id) ((xs.map (storedBytes E cfg s)).flatten)).store key =
      Spec.bucket (((db ++ xs.map fun x => (cfg, x)).filter (inShared E key)).map (sharedRaw E)) := by
  have e : ((xs.map fun x => (cfg, x)).filter (inShared E key)).map (sharedRaw E) =
      (xs.filter (inBucket E s key)).map (storedRaw E cfg s) := by
    rw [List.filter_map, List.map_map]
    have : (inShared E key ∘ fun x => (cfg, x)) = inBucket E s key := funext fun x => inShared_ok hs key x
    rw [this]
    exact List.map_congr_left fun x _ => sharedRaw_ok hs x
  rw [List.filter_append, List.map_append, e, bucket_append, filter_all hx hid, ← ih key]
  by_cases h : key = BucketIDToHex id
  · rw [if_pos h, bucket_storedRaw xs hf, h, KV.append_same]
  · rw [if_neg h, KV.append_other _ _ _ _ h]
    simp [Spec.bucket]

/-- What can be in the list of a shared history. -/
def SharedFits (E : Ext) (bits : Int) (e : ServerConfig × Stored) : Prop :=
  Fits e.2 ∧ e.1.bucketIDBitSize = bits ∧ ∃ s id, NewServer E e.1 = .ok s ∧ s.bucketID E e.2.username = .ok id ∧
    Spec.tweak s.suite s.privateKey ≠ 0

/-- The invariant of shared stores. -/
theorem shared_invariant {kv : KV} {db : List (ServerConfig × Stored)} (h : SharedHistory E bits kv db) :
    (∀ key, kv.store key = Spec.bucket ((db.filter (inShared E key)).map (sharedRaw E))) ∧
    (∀ e ∈ db, SharedFits E bits e) := by
  induction h with
  | start => exact ⟨fun _ => rfl, by simp⟩
  | @inserted kv kv' db cfg s r vs _ hs hb hr hvs ih =>
    have ho := insertRecord_outcome hs r kv
    rw [hr] at ho
    cases ho with
    | done id vs' hid hst =>
      obtain rfl : vs = vs' := by
        have := hst.hvs; rw [hvs] at this; injection this
      refine ⟨fun key => shared_append hs ih.1 (fun x hx => (mem_stored hx).1) (stored_bounds hst) hid key, ?_⟩
      intro e he
      rcases List.mem_append.mp he with he | he
      · exact ih.2 e he
      · obtain ⟨x, hx, rfl⟩ := List.mem_map.mp he
        exact ⟨stored_bounds hst x hx, hb, s, id, hs, by dsimp only; rw [(mem_stored hx).1]; exact hid, hst.ht⟩
  | @refused kv kv' db cfg s r e _ hs hb hr ih =>
    rw [C44_error_stores_nothing hs r kv kv' e hr]
    exact ih
  | @entry kv db cfg s u p flag m c id _ hs hb hc hid ih =>
    obtain ⟨hf, hu, hp, hm, ht, hkey⟩ := (C05_encryptBucketEntry_iff cfg s hs u p flag m c).mp hc
    have hfit : Fits ⟨u, p, flag, m⟩ := ⟨hf, hu, hp, hm⟩
    have hc' := encryptBucketEntry_ok hs u p flag m hf hu hp ht hm
    rw [hc] at hc'
    injection hc' with hc'
    refine ⟨fun key => ?_, ?_⟩
    · have := shared_append (xs := [⟨u, p, flag, m⟩]) hs ih.1 (by simp) (by simpa using hfit) hid key
      rw [hc']
      simp only [List.map_cons, List.map_nil, List.flatten_cons, List.flatten_nil, List.append_nil] at this
      exact this
    · intro e he
      rcases List.mem_append.mp he with he | he
      · exact ih.2 e he
      · obtain rfl := List.mem_singleton.mp he
        exact ⟨hfit, hb, s, id, hs, hid, ht⟩

/-- What a search in a shared store with any secret returns. -/
theorem shared_search {kv : KV} {db : List (ServerConfig × Stored)} (h : SharedHistory E bits kv db) (enc : BucketEncryptor)
    (secret : Bytes) (key : GoString) :
    finalizeLoop E enc secret (kv.store key) 0 =
      match db.find? (fun e => inShared E key e && decide ((sharedRaw E e).tag = Spec.keyTag E.sha256 secret)) with
      | none => .ret NotInBreach none none
      | some e => openResult E secret (sharedRaw E e) := by
  obtain ⟨h1, h2⟩ := shared_invariant h
  rw [h1 key]
  have hwf : ∀ e ∈ (db.filter (inShared E key)).map (sharedRaw E), e.WF := by
    intro e he
    obtain ⟨x, hx, rfl⟩ := List.mem_map.mp he
    obtain ⟨hf, -, s, id, hs, -⟩ := h2 x (List.mem_filter.mp hx).1
    obtain ⟨d, x⟩ := x
    rw [sharedRaw_ok hs]
    exact storedRaw_wf E d s x hf.2.2.2
  have := finalizeLoop_bucket E enc secret _ hwf []
  rw [List.append_nil] at this
  rw [this]
  have e : Spec.firstMatch E.sha256 secret ((db.filter (inShared E key)).map (sharedRaw E)) =
      (db.find? (fun e => inShared E key e && decide ((sharedRaw E e).tag = Spec.keyTag E.sha256 secret))).map (sharedRaw E) := by
    unfold Spec.firstMatch
    rw [List.find?_map, List.find?_filter]
    congr 2
    funext a
    apply Bool.eq_iff_iff.mpr
    rw [Bool.and_eq_true]
    exact ⟨fun h => (of_decide_eq_true h), fun h => decide_eq_true h⟩
  rw [e]
  cases db.find? (fun e => inShared E key e && decide ((sharedRaw E e).tag = Spec.keyTag E.sha256 secret)) with
  | none => exact finalizeLoop_end E enc secret [] 0 (by simp)
  | some x => rfl

/-- Servers that are alike make the same entries. -/
theorem alike_same {cfg' : ServerConfig} {s' : Server} (hs : NewServer E cfg = .ok s) (hs' : NewServer E cfg' = .ok s')
    (ha : Alike cfg' cfg) : (∀ u p, entryKey E cfg' s' u p = entryKey E cfg s u p) ∧
      (∀ x, storedRaw E cfg' s' x = storedRaw E cfg s x) ∧
      (Spec.tweak s'.suite s'.privateKey = 0 ↔ Spec.tweak s.suite s.privateKey = 0) := by
  obtain ⟨slow, S, -, -, h1, h2, -, rfl⟩ := newServer_ok hs
  obtain ⟨slow', S', -, -, h1', h2', -, rfl⟩ := newServer_ok hs'
  obtain ⟨a1, a2, a3⟩ := ha
  rw [a1, h1] at h1'
  rw [a2, h2] at h2'
  injection h2' with h2'
  subst h2'
  have key : ∀ u p, entryKey E cfg' ⟨cfg'.version, cfg'.bucketIDBitSize, NewSHA256BucketHasher, .hkdfSHA256, slow', S,
      cfg'.oprfSuite, cfg'.privateKey⟩ u p = entryKey E cfg ⟨cfg.version, cfg.bucketIDBitSize, NewSHA256BucketHasher,
      .hkdfSHA256, slow, S, cfg.oprfSuite, cfg.privateKey⟩ u p := by
    intro u p
    unfold entryKey
    dsimp only
    rw [a3, a1]
  refine ⟨key, ?_, by dsimp only; rw [a3]⟩
  intro x
  unfold storedRaw
  rw [key]

/-- Usernames have the same buckets for all servers of one number of bits. -/
theorem same_bits {cfg' : ServerConfig} {s' : Server} (hs : NewServer E cfg = .ok s) (hs' : NewServer E cfg' = .ok s')
    (hb : cfg'.bucketIDBitSize = cfg.bucketIDBitSize) (u : Bytes) : s'.bucketID E u = s.bucketID E u := by
  obtain ⟨slow, S, -, -, h1, h2, -, rfl⟩ := newServer_ok hs
  obtain ⟨slow', S', -, -, h1', h2', -, rfl⟩ := newServer_ok hs'
  unfold Server.bucketID
  dsimp only
  rw [hb]

theorem mem_ofKey {db : List (ServerConfig × Stored)} {x : Stored} :
    x ∈ ofKey cfg db ↔ ∃ d, Alike d cfg ∧ (d, x) ∈ db := by
  unfold ofKey
  constructor
  · intro h
    obtain ⟨⟨d, y⟩, h1, rfl⟩ := List.mem_map.mp h
    obtain ⟨h1, h2⟩ := List.mem_filter.mp h1
    exact ⟨d, of_decide_eq_true h2, h1⟩
  · rintro ⟨d, h1, h2⟩
    exact List.mem_map.mpr ⟨(d, x), List.mem_filter.mpr ⟨h2, decide_eq_true h1⟩, rfl⟩

/-- The exchange on a shared store is the search among the entries of the server's own key. -/
theorem shared_exchange (hc : NewClient E cfg.toConfig = .ok c) (hs : NewServer E cfg = .ok s)
    {kv : KV} {db : List (ServerConfig × Stored)} (h : SharedHistory E cfg.bucketIDBitSize kv db) (u p : Bytes)
    (r : ZMod c.suite.q) (hu : u.length ≤ 65536) (hp : p.length ≤ 65536) (h0 : 0 ≤ cfg.bucketIDBitSize)
    (h32 : cfg.bucketIDBitSize ≤ 32) (ht : Spec.tweak s.suite s.privateKey ≠ 0) (hr : r ≠ 0)
    (hno : ∀ e ∈ db, ¬ ForeignCollision E cfg s e u p) :
    ∃ id, s.bucketID E u = .ok id ∧ exchange E c s kv u p r =
      match (ofKey cfg db).find? (fun x => inBucket E s (BucketIDToHex id) x &&
        decide (keyTag E.sha256 (entryKey E cfg s x.username x.password) =
          keyTag E.sha256 (entryKey E cfg s u p))) with
      | none => .ret NotInBreach none none
      | some x => openResult E (entryKey E cfg s u p) (storedRaw E cfg s x) := by
  rcases exchange_cases hc hs u p r with ⟨h1, -⟩ | ⟨h1, -⟩ | ⟨-, -, -, id, secret, h1, h2, h3⟩
  · omega
  · exact absurd h1 ht
  refine ⟨id, h1, ?_⟩
  rw [h3 kv, h2 hr, shared_search h]
  obtain ⟨-, g2⟩ := shared_invariant h
  clear h3 h2 h
  induction db with
  | nil => rfl
  | cons e db ih =>
    have ih := ih (fun e he => hno e (List.mem_cons_of_mem _ he)) (fun e he => g2 e (List.mem_cons_of_mem _ he))
    obtain ⟨d, x⟩ := e
    obtain ⟨hf, hb, sd, idd, hsd, hidd, htd⟩ := g2 (d, x) (by simp)
    dsimp only at hf hb hsd hidd
    have hbid := same_bits hs hsd hb
    have hin : inShared E (BucketIDToHex id) (d, x) = inBucket E s (BucketIDToHex id) x := by
      rw [inShared_ok hsd]
      unfold inBucket
      rw [hbid]
    rw [List.find?_cons, hin, sharedRaw_ok hsd]
    by_cases ha : Alike d cfg
    · obtain ⟨k1, k2, -⟩ := alike_same hs hsd ha
      rw [k2]
      have hof : ofKey cfg ((d, x) :: db) = x :: ofKey cfg db := by
        unfold ofKey
        rw [List.filter_cons, if_pos (decide_eq_true ha), List.map_cons]
      rw [hof, List.find?_cons]
      have htag : (storedRaw E cfg s x).tag = keyTag E.sha256 (entryKey E cfg s x.username x.password) := rfl
      rw [htag]
      cases hm : (inBucket E s (BucketIDToHex id) x &&
        decide (keyTag E.sha256 (entryKey E cfg s x.username x.password) =
          keyTag E.sha256 (entryKey E cfg s u p))) with
      | true => dsimp only; rw [sharedRaw_ok hsd, k2]
      | false => exact ih
    · have hof : ofKey cfg ((d, x) :: db) = ofKey cfg db := by
        unfold ofKey
        rw [List.filter_cons, if_neg (by simpa using ha)]
      rw [hof]
      have : (inBucket E s (BucketIDToHex id) x && decide ((storedRaw E d sd x).tag =
          keyTag E.sha256 (entryKey E cfg s u p))) = false := by
        rw [Bool.eq_false_iff]
        intro hh
        rw [Bool.and_eq_true, decide_eq_true_eq] at hh
        obtain ⟨q1, q2⟩ := hh
        rw [inBucket_ok (by rw [← hbid]; exact hidd), beq_iff_eq] at q1
        refine hno (d, x) (by simp) ⟨ha, sd, hsd, ?_, _, _, deriveKey_ok hsd _ _ hf.2.1 hf.2.2.1 htd,
          deriveKey_ok hs u p hu hp ht, q2⟩
        rw [hidd, h1, BucketIDToHex_inj q1]
      rw [this]
      exact ih

/-- C92: what servers with other keys, slow hashes or suites have put into a store — before, between and after — changes no answer
of a server: it answers as from a store that has only what servers like itself have put there, in that order; unless
an entry of the others, in the bucket of the username, has the 20-byte tag of the credential asked for. -/
theorem C92_own_entries (hc : NewClient E cfg.toConfig = .ok c) (hs : NewServer E cfg = .ok s)
    {kv kv₀ : KV} {db : List (ServerConfig × Stored)} (h : SharedHistory E cfg.bucketIDBitSize kv db)
    (h₀ : History E s kv₀ (ofKey cfg db)) (u p : Bytes) (r : ZMod c.suite.q) (hr : r ≠ 0) :
    exchange E c s kv u p r = exchange E c s kv₀ u p r ∨ ∃ e ∈ db, ForeignCollision E cfg s e u p := by
  by_cases hno : ∃ e ∈ db, ForeignCollision E cfg s e u p
  · exact .inr hno
  left
  by_cases hpan : 65536 < u.length ∨ 65536 < p.length ∨ cfg.bucketIDBitSize < 0 ∨ 32 < cfg.bucketIDBitSize
  · rcases exchange_cases hc hs u p r with ⟨-, q, h1⟩ | ⟨-, e, h1⟩ | ⟨g1, g2, -, id, _, hid, -⟩
    · rw [h1, h1]
    · rw [h1, h1]
    · have := fits_range hs hid
      omega
  by_cases ht : Spec.tweak s.suite s.privateKey = 0
  · rcases exchange_cases hc hs u p r with ⟨-, q, h1⟩ | ⟨-, e, h1⟩ | ⟨-, -, g, -⟩
    · rw [h1, h1]
    · rw [h1, h1]
    · exact absurd ht g
  obtain ⟨id, hid, e1⟩ := shared_exchange hc hs h u p r (by omega) (by omega) (by omega) (by omega) ht hr
    (fun e he hcol => hno ⟨e, he, hcol⟩)
  obtain ⟨id', hid', e2⟩ := exchange_eq hc hs h₀ u p r (by omega) (by omega) (by omega) (by omega) ht hr
  rw [hid] at hid'
  injection hid' with hid'
  subst hid'
  exact e1.trans e2.symm

/-- C92: such a store exists: what the servers like `s` have stored can be stored by `s` alone. -/
theorem C92_alone (hs : NewServer E cfg = .ok s) {kv : KV} {db : List (ServerConfig × Stored)}
    (h : SharedHistory E cfg.bucketIDBitSize kv db) : ∃ kv₀, History E s kv₀ (ofKey cfg db) := by
  have hof : ∀ (d : ServerConfig) (xs : List Stored), ofKey cfg (xs.map fun x => (d, x)) = if Alike d cfg then xs else [] := by
    intro d xs
    unfold ofKey
    split
    · rename_i ha
      rw [List.filter_eq_self.mpr, List.map_map]
      · exact List.map_id _
      · intro e he
        obtain ⟨x, -, rfl⟩ := List.mem_map.mp he
        exact decide_eq_true ha
    · rename_i ha
      rw [List.filter_eq_nil_iff.mpr]
      · rfl
      · intro e he
        obtain ⟨x, -, rfl⟩ := List.mem_map.mp he
        simpa using ha
  have happ : ∀ a b, ofKey cfg (a ++ b) = ofKey cfg a ++ ofKey cfg b := by
    intro a b
    unfold ofKey
    rw [List.filter_append, List.map_append]
  induction h with
  | start => exact ⟨_, .start⟩
  | @inserted kv kv' db d sd r vs _ hsd hb hr hvs ih =>
    obtain ⟨kv₀, ih⟩ := ih
    rw [happ, hof]
    split
    · rename_i ha
      have ho := insertRecord_outcome hsd r kv
      rw [hr] at ho
      cases ho with
      | done id vs' hid hst =>
        obtain rfl : vs = vs' := by
          have := hst.hvs; rw [hvs] at this; injection this
        have : ∃ kv₁, insertRecord E s r kv₀ = (kv₁, .ok ()) := by
          obtain ⟨-, -, k3⟩ := alike_same hs hsd ha
          have hid' := (same_bits hs hsd hb r.username).symm.trans hid
          have ho := insertRecord_outcome hs r kv₀
          generalize insertRecord E s r kv₀ = out at ho
          obtain ⟨g1, g2, g3, g4, g5, g6, g7, g8⟩ := hst
          rw [hb] at g4 g5
          cases ho with
          | done => exact ⟨_, rfl⟩
          | refused e _ _ _ _ hc => exact absurd (hc.resolve_right (by omega)) (fun h => g6 (k3.mpr h))
          | panicked q hc => omega
          | crashed q id' vs' k _ _ _ _ _ _ _ hc =>
            rcases hc with ⟨-, -, q, hq⟩ | ⟨hq, v, hv, hl⟩
            · rw [hq] at g7; cases g7
            · rw [hq] at g7
              injection g7 with g7
              subst g7
              have := g8 v (List.mem_of_getElem? hv)
              omega
        obtain ⟨kv₁, hk⟩ := this
        exact ⟨kv₁, .inserted r vs ih hk hvs⟩
    · rw [List.append_nil]; exact ⟨kv₀, ih⟩
  | refused d sd r e _ _ _ _ ih => exact ih
  | @entry kv db d sd u p flag m b id _ hsd hb hc hid ih =>
    obtain ⟨kv₀, ih⟩ := ih
    have : [(d, (⟨u, p, flag, m⟩ : Stored))] = [⟨u, p, flag, m⟩].map fun x => (d, x) := rfl
    rw [happ, this, hof]
    split
    · rename_i ha
      obtain ⟨hf, hu, hp, hm, ht, hkey⟩ := (C05_encryptBucketEntry_iff d sd hsd u p flag m b).mp hc
      obtain ⟨-, -, k3⟩ := alike_same hs hsd ha
      exact ⟨_, .entry u p flag m _ id ih (encryptBucketEntry_ok hs u p flag m hf hu hp (fun h => ht (k3.mpr h)) hm)
        ((same_bits hs hsd hb u).symm.trans hid)⟩
    · rw [List.append_nil]; exact ⟨kv₀, ih⟩

/-- C92: absent such coincidences and those of `TagCollision`, a query answers what looking up the earliest entry for the credential
among those of servers like this one gives. -/
theorem C92_lookup (hc : NewClient E cfg.toConfig = .ok c) (hs : NewServer E cfg = .ok s)
    {kv : KV} {db : List (ServerConfig × Stored)} (h : SharedHistory E cfg.bucketIDBitSize kv db) (u p : Bytes)
    (r : ZMod c.suite.q) (hu : u.length ≤ 65536) (hp : p.length ≤ 65536) (h0 : 0 ≤ cfg.bucketIDBitSize)
    (h32 : cfg.bucketIDBitSize ≤ 32) (ht : Spec.tweak s.suite s.privateKey ≠ 0) (hr : r ≠ 0)
    (hno : ∀ e ∈ db, ¬ ForeignCollision E cfg s e u p) (hno' : ∀ x ∈ ofKey cfg db, ¬ TagCollision E s x u p) :
    exchange E c s kv u p r =
      match lookup (ofKey cfg db) u p with
      | none => .ret NotInBreach none none
      | some x => .ret (MetadataType.toBreachStatus x.flag) (some x.metadata) none := by
  obtain ⟨kv₀, h₀⟩ := C92_alone hs h
  rcases C92_own_entries hc hs h h₀ u p r hr with e | ⟨e, he, hcol⟩
  · rw [e]
    exact C28_ideal_lookup hc hs h₀ u p r hu hp h0 h32 ht hr hno'
  · exact absurd hcol (hno e he)

/-- C92: a credential that some server like this one has stored is always found, whatever others have put into the store. -/
theorem C92_found (hc : NewClient E cfg.toConfig = .ok c) (hs : NewServer E cfg = .ok s)
    {kv : KV} {db : List (ServerConfig × Stored)} (h : SharedHistory E cfg.bucketIDBitSize kv db) (x : Stored)
    (hx : x ∈ ofKey cfg db) (r : ZMod c.suite.q) (hr : r ≠ 0) :
    ∃ status metadata, exchange E c s kv x.username x.password r = .ret status (some metadata) none := by
  obtain ⟨d, ha, hd⟩ := mem_ofKey.mp hx
  obtain ⟨-, g2⟩ := shared_invariant h
  obtain ⟨hf, hb, sd, idd, hsd, hidd, htd⟩ := g2 _ hd
  dsimp only at hf hb hsd hidd
  obtain ⟨k1, k2, k3⟩ := alike_same hs hsd ha
  rw [same_bits hs hsd hb] at hidd
  have hbits := fits_range hs hidd
  rcases exchange_cases hc hs x.username x.password r with ⟨h1, -⟩ | ⟨h1, -⟩ | ⟨-, -, -, id, secret, h1, h2, h3⟩
  · have := hf.2.1; have := hf.2.2.1; omega
  · exact absurd (k3.mpr h1) htd
  rw [hidd] at h1
  injection h1 with h1
  subst h1
  rw [h3 kv, h2 hr, shared_search h]
  cases hfind : db.find? _ with
  | none =>
    have := List.find?_eq_none.mp hfind (d, x) hd
    rw [inShared_ok hsd, sharedRaw_ok hsd, k2] at this
    unfold inBucket at this
    rw [same_bits hs hsd hb, hidd] at this
    simp [storedRaw] at this
  | some e =>
    obtain ⟨d', y⟩ := e
    obtain ⟨hf', -, sd', -, hsd', -⟩ := g2 _ (List.mem_of_find?_eq_some hfind)
    dsimp only
    rw [sharedRaw_ok hsd']
    exact (open_stored y hf' _).1

/-- C92: a store that no server like this one has put anything into is as good as empty: no error, and no breach of anything. -/
theorem C92_other_key_silent (hc : NewClient E cfg.toConfig = .ok c) (hs : NewServer E cfg = .ok s)
    {kv : KV} {db : List (ServerConfig × Stored)} (h : SharedHistory E cfg.bucketIDBitSize kv db)
    (hdb : ∀ e ∈ db, ¬ Alike e.1 cfg) (u p : Bytes) (r : ZMod c.suite.q) (hr : r ≠ 0)
    (hu : u.length ≤ 65536) (hp : p.length ≤ 65536) (h0 : 0 ≤ cfg.bucketIDBitSize) (h32 : cfg.bucketIDBitSize ≤ 32)
    (ht : Spec.tweak s.suite s.privateKey ≠ 0) :
    exchange E c s kv u p r = .ret NotInBreach none none ∨ ∃ e ∈ db, ForeignCollision E cfg s e u p := by
  by_cases hno : ∃ e ∈ db, ForeignCollision E cfg s e u p
  · exact .inr hno
  left
  have hof : ofKey cfg db = [] := by
    unfold ofKey
    rw [List.filter_eq_nil_iff.mpr, List.map_nil]
    intro e he
    simpa using hdb e he
  have := C92_lookup hc hs h u p r hu hp h0 h32 ht hr (fun e he hcol => hno ⟨e, he, hcol⟩) (by rw [hof]; simp)
  rw [this, hof]
  rfl

/-- C92: the entries of one server make a shared store, with whatever was there before. -/
theorem history_shared (hs : NewServer E cfg = .ok s) {kv : KV} {db : List Stored} (h : History E s kv db) :
    SharedHistory E cfg.bucketIDBitSize kv (db.map fun x => (cfg, x)) := by
  induction h with
  | start => exact .start
  | inserted r vs _ hr hvs ih => rw [List.map_append]; exact .inserted cfg s r vs ih hs rfl hr hvs
  | refused r e _ hr ih => exact .refused cfg s r e ih hs rfl hr
  | entry u p flag m b id _ hc hid ih => rw [List.map_append]; exact .entry cfg s u p flag m b id ih hs rfl hc hid

theorem shared_load (hs : NewServer E cfg = .ok s) (recs : List Record)
    (hno : ∀ rec ∈ recs, ¬ (insertRecord E s rec newKVStore).2.IsPanic) :
    ∀ {kv : KV} {db : List (ServerConfig × Stored)}, SharedHistory E cfg.bucketIDBitSize kv db →
    SharedHistory E cfg.bucketIDBitSize (recs.foldl (fun kv rec => (insertRecord E s rec kv).1) kv)
      (db ++ (storedBy E s recs).map fun x => (cfg, x)) := by
  induction recs with
  | nil => intro kv db h; rw [show storedBy E s [] = [] from rfl, List.map_nil, List.append_nil]; exact h
  | cons r recs ih =>
    intro kv db h
    have hcons : storedBy E s (r :: recs) = r.inserts E s ++ storedBy E s recs := List.flatMap_cons ..
    rw [hcons, List.foldl_cons, List.map_append, ← List.append_assoc]
    refine ih (fun rec hrec => hno rec (List.mem_cons_of_mem _ hrec)) ?_
    unfold Record.inserts
    have hsame := (C88_insert (E := E) (s := s) r kv).1
    cases hres : (insertRecord E s r newKVStore).2 with
    | panic p => exact absurd ⟨p, hres⟩ (hno r (by simp))
    | err e =>
      rw [List.map_nil, List.append_nil]
      exact .refused cfg s r e h hs rfl (Prod.ext rfl (hsame.trans hres))
    | ok x =>
      have hins : insertRecord E s r kv = ((insertRecord E s r kv).1, .ok ()) := Prod.ext rfl (hsame.trans hres)
      obtain ⟨-, vs, -, -, -, hvs, -⟩ := C43_insert_appends hs r kv _ hins
      rw [hvs]
      exact .inserted cfg s r vs h hs rfl hins hvs

theorem ofKey_append (a b : List (ServerConfig × Stored)) : ofKey cfg (a ++ b) = ofKey cfg a ++ ofKey cfg b := by
  unfold ofKey
  rw [List.filter_append, List.map_append]

theorem ofKey_same (xs : List Stored) : ofKey cfg (xs.map fun x => (cfg, x)) = xs := by
  unfold ofKey
  rw [List.filter_eq_self.mpr, List.map_map]
  · exact List.map_id _
  · intro e he
    obtain ⟨x, -, rfl⟩ := List.mem_map.mp he
    exact decide_eq_true ⟨rfl, rfl, rfl⟩

theorem ofKey_other {d : ServerConfig} (hd : ¬ Alike d cfg) (xs : List Stored) : ofKey cfg (xs.map fun x => (d, x)) = [] := by
  unfold ofKey
  rw [List.filter_eq_nil_iff.mpr, List.map_nil]
  intro e he
  obtain ⟨x, -, rfl⟩ := List.mem_map.mp he
  simpa using hd

/-- C92: a key can be changed without a moment in which the service is wrong. A store filled under one key (or slow hash or suite)
is filled once more under another, with any records. A server of the old key then answers as before, and one of the new key as
if the records had been loaded into an empty store; unless 20-byte tags of different keys coincide. -/
theorem C92_rotation {cfg' : ServerConfig} {s' : Server} {c' : Client} (hc : NewClient E cfg.toConfig = .ok c)
    (hs : NewServer E cfg = .ok s) (hc' : NewClient E cfg'.toConfig = .ok c') (hs' : NewServer E cfg' = .ok s')
    (hb : cfg'.bucketIDBitSize = cfg.bucketIDBitSize) (hd : ¬ Alike cfg' cfg)
    {kv : KV} {db : List Stored} (h : History E s kv db) (recs : List Record)
    (hno : ∀ rec ∈ recs, ¬ (insertRecord E s' rec newKVStore).2.IsPanic)
    (u p : Bytes) (r : ZMod c.suite.q) (hr : r ≠ 0) (r' : ZMod c'.suite.q) (hr' : r' ≠ 0) :
    (exchange E c s (recs.foldl (fun kv rec => (insertRecord E s' rec kv).1) kv) u p r = exchange E c s kv u p r ∨
      ∃ x ∈ storedBy E s' recs, ForeignCollision E cfg s (cfg', x) u p) ∧
    (exchange E c' s' (recs.foldl (fun kv rec => (insertRecord E s' rec kv).1) kv) u p r' =
        exchange E c' s' (recs.foldl (fun kv rec => (insertRecord E s' rec kv).1) newKVStore) u p r' ∨
      ∃ x ∈ db, ForeignCollision E cfg' s' (cfg, x) u p) := by
  have h1 := history_shared hs h
  have hd' : ¬ Alike cfg cfg' := fun ⟨a, b, e⟩ => hd ⟨a.symm, b.symm, e.symm⟩
  have h2 := shared_load hs' recs hno (hb ▸ h1)
  have h3 := shared_load hs' recs hno (SharedHistory.start (E := E) (bits := cfg'.bucketIDBitSize))
  obtain ⟨kv₀, h4⟩ := C92_alone hs' h3
  have hself : ∀ (d : ServerConfig) (sd : Server) (x : Stored), ¬ ForeignCollision E d sd (d, x) u p :=
    fun d sd x hcol => hcol.1 ⟨rfl, rfl, rfl⟩
  constructor
  · have := C92_own_entries hc hs (hb ▸ h2) (kv₀ := kv) (by rw [ofKey_append, ofKey_same, ofKey_other hd, List.append_nil]; exact h)
      u p r hr
    refine this.imp id ?_
    rintro ⟨e, he, hcol⟩
    rcases List.mem_append.mp he with he | he
    · obtain ⟨x, -, rfl⟩ := List.mem_map.mp he
      exact absurd hcol (hself _ _ _)
    · obtain ⟨x, hx, rfl⟩ := List.mem_map.mp he
      exact ⟨x, hx, hcol⟩
  · rw [List.nil_append] at h3 h4
    have e1 := C92_own_entries hc' hs' h2 (kv₀ := kv₀) (by rw [ofKey_append, ofKey_other hd', List.nil_append]; exact h4) u p r' hr'
    have e2 := C92_own_entries hc' hs' h3 h4 u p r' hr'
    have e2 := e2.resolve_right (by
      rintro ⟨e, he, hcol⟩
      obtain ⟨x, -, rfl⟩ := List.mem_map.mp he
      exact hself _ _ _ hcol)
    rw [e2]
    refine e1.imp id ?_
    rintro ⟨e, he, hcol⟩
    rcases List.mem_append.mp he with he | he
    · obtain ⟨x, hx, rfl⟩ := List.mem_map.mp he
      exact ⟨x, hx, hcol⟩
    · obtain ⟨x, -, rfl⟩ := List.mem_map.mp he
      exact absurd hcol (hself _ _ _)

/-- C92: the same over HTTP: what `Query` returns from a server of this package with the shared store behind it. -/
theorem C92_query (hc : NewClient E cfg.toConfig = .ok c) (hs : NewServer E cfg = .ok s) (hlen : s.suite.elemLen = 33)
    {kv : KV} {db : List (ServerConfig × Stored)} (h : SharedHistory E cfg.bucketIDBitSize kv db) (stale : Nat → Nat → UInt8)
    (u p : Bytes) (rand : (S : Suite) → ZMod S.q) (hr : rand c.suite ≠ 0)
    (he : c.suite.hashToElement (Spec.oprfInput E cfg.slowHasherID u p) ≠ 0)
    (hu : u.length ≤ 65536) (hp : p.length ≤ 65536) (h0 : 0 ≤ cfg.bucketIDBitSize)
    (h32 : cfg.bucketIDBitSize ≤ 32) (ht : Spec.tweak s.suite s.privateKey ≠ 0)
    (hno : ∀ e ∈ db, ¬ ForeignCollision E cfg s e u p) (hno' : ∀ x ∈ ofKey cfg db, ¬ TagCollision E s x u p) :
    Query E cfg.toConfig (deliver s kv stale (ascii "/evaluate")) u p rand =
      match lookup (ofKey cfg db) u p with
      | none => .ret NotInBreach none none
      | some x => .ret (MetadataType.toBreachStatus x.flag) (some x.metadata) none := by
  rw [mismatch_query hc hs rfl rfl hlen ht kv stale u p rand hr he]
  exact C92_lookup hc hs h u p _ hu hp h0 h32 ht hr hno hno'

/-- C92: the strings of which tags of different keys are made are different: of one credential (not hashed to the identity) under
different keys of one suite, a coincidence is one of the tag's hash. -/
theorem C92_keys_differ (S : Suite) (k k' : PrivateKey) (hk : (k.k : ZMod S.q) ≠ (k'.k : ZMod S.q)) (x : Bytes)
    (hx : S.hashToElement x ≠ 0) : S.ser ((tweak S k)⁻¹ * S.hashToElement x) ≠ S.ser ((tweak S k')⁻¹ * S.hashToElement x) := by
  intro h
  have e := congrArg S.de h
  rw [S.de_ser, S.de_ser] at e
  injection e with e
  have e := inv_injective (mul_right_cancel₀ hx e)
  unfold tweak at e
  exact hk (add_right_cancel e)

/-! ## Concrete cases -/

section concrete
open Example

/-- The server of the example with another key. -/
def cfg2 : ServerConfig := { Example.cfg with privateKey := ⟨5⟩ }

/-- Its server. -/
def server2 : Server := { server with privateKey := ⟨5⟩ }

theorem newServer2_eq : NewServer ext cfg2 = .ok server2 := rfl

theorem newClient2_eq : NewClient ext cfg2.toConfig = .ok client := newClient_eq

theorem not_alike : ¬ Alike cfg2 Example.cfg := by decide

/-- The same credential again, with other metadata. -/
def againRec : Record := ⟨ascii "user", ascii "abc", ascii "B", 0, false⟩

/-- The store of the example, filled once more under the other key. -/
def bothStore : KV := [againRec].foldl (fun kv rec => (insertRecord ext server2 rec kv).1) oneStore

theorem againRec_ok : ¬ (insertRecord ext server2 againRec newKVStore).2.IsPanic := by
  have : (insertRecord ext server2 againRec newKVStore).2 = .ok () := by decide +kernel
  rw [this]
  rintro ⟨q, h⟩
  cases h

theorem againRec_stored : storedBy ext server2 [againRec] = [⟨ascii "user", ascii "abc", 1, ascii "B"⟩] := by decide +kernel

/-- The tags of one credential under two keys. -/
def tagsMeet (u p : Bytes) (u' p' : Bytes) : Bool :=
  match server.deriveBucketEntryKey ext u p, server2.deriveBucketEntryKey ext u' p' with
  | .ok k, .ok k' => decide (keyTag ext.sha256 k = keyTag ext.sha256 k')
  | _, _ => false

theorem no_foreign (x : Stored) (u p : Bytes) (h : tagsMeet u p x.username x.password = false) :
    ¬ ForeignCollision ext Example.cfg server (cfg2, x) u p := by
  rintro ⟨-, s', h1, -, k, k', h2, h3, h4⟩
  rw [newServer2_eq] at h1
  injection h1 with h1
  subst h1
  unfold tagsMeet at h
  dsimp only at h2
  rw [h2, h3] at h
  exact absurd h4.symm (of_decide_eq_false h)

theorem no_foreign' (x : Stored) (u p : Bytes) (h : tagsMeet x.username x.password u p = false) :
    ¬ ForeignCollision ext cfg2 server2 (Example.cfg, x) u p := by
  rintro ⟨-, s', h1, -, k, k', h2, h3, h4⟩
  rw [newServer_eq] at h1
  injection h1 with h1
  subst h1
  unfold tagsMeet at h
  dsimp only at h2
  rw [h2, h3] at h
  exact absurd h4 (of_decide_eq_false h)

/-- C92_rotation, C92_own_entries: a store with one credential under two keys, with different metadata: each server gives its own. -/
example : exchange ext client server bothStore (ascii "user") (ascii "abc") 1 = .ret InBreach (some (ascii "A")) none ∧
    exchange ext client server2 bothStore (ascii "user") (ascii "abc") 1 = .ret InBreach (some (ascii "B")) none := by
  obtain ⟨h1, h2⟩ := C92_rotation newClient_eq newServer_eq newClient2_eq newServer2_eq rfl not_alike oneStore_history [againRec]
    (by intro rec hrec; obtain rfl := List.mem_singleton.mp hrec; exact againRec_ok) (ascii "user") (ascii "abc") 1 (by decide)
    1 (by decide)
  have hno : tagsMeet (ascii "user") (ascii "abc") (ascii "user") (ascii "abc") = false := by decide +kernel
  constructor
  · rcases h1 with h | ⟨x, hx, h⟩
    · exact h.trans oneStore_answer
    · rw [againRec_stored] at hx
      obtain rfl := List.mem_singleton.mp hx
      exact absurd h (no_foreign _ _ _ hno)
  · rcases h2 with h | ⟨x, hx, h⟩
    · exact h.trans (by decide +kernel)
    · obtain rfl := List.mem_singleton.mp hx
      exact absurd h (no_foreign' _ _ _ hno)

/-- C92_other_key_silent: the store of the example, served under the other key, reports its password as not in a breach. -/
theorem C92_silent_example : exchange ext client server2 oneStore (ascii "user") (ascii "abc") 1 = .ret NotInBreach none none := by
  have hno : tagsMeet (ascii "user") (ascii "abc") (ascii "user") (ascii "abc") = false := by decide +kernel
  rcases C92_other_key_silent newClient2_eq newServer2_eq (history_shared newServer_eq oneStore_history)
    (by intro e he; obtain ⟨x, -, rfl⟩ := List.mem_map.mp he; exact fun ⟨a, b, e⟩ => not_alike ⟨a.symm, b.symm, e.symm⟩)
    (ascii "user") (ascii "abc") 1 (by decide) (by decide) (by decide) (by decide) (by decide) (by decide +kernel) with h | ⟨e, he, h⟩
  · exact h
  · obtain ⟨x, hx, rfl⟩ := List.mem_map.mp he
    obtain rfl := List.mem_singleton.mp hx
    exact absurd h (no_foreign' _ _ _ hno)

/-- C92_found: the credential in the store with two keys. -/
example : ∃ status metadata, exchange ext client server bothStore (ascii "user") (ascii "abc") 3 = .ret status (some metadata) none := by
  have h := shared_load newServer2_eq [againRec]
    (by intro rec hrec; obtain rfl := List.mem_singleton.mp hrec; exact againRec_ok) (history_shared newServer_eq oneStore_history)
  exact C92_found newClient_eq newServer_eq h ⟨ascii "user", ascii "abc", 1, ascii "A"⟩
    (mem_ofKey.mpr ⟨Example.cfg, ⟨rfl, rfl, rfl⟩, by simp⟩) 3 (by decide)

/-- C92_keys_differ: in the suite of the example. -/
example (x : Bytes) : server.suite.ser ((tweak server.suite ⟨5⟩)⁻¹ * server.suite.hashToElement x) ≠
    server.suite.ser ((tweak server.suite Example.cfg.privateKey)⁻¹ * server.suite.hashToElement x) :=
  C92_keys_differ server.suite ⟨5⟩ Example.cfg.privateKey (by decide) x (toy_hash_ne _)

end concrete

end Migp.Props
