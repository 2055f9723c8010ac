import Verif.Props.Insert
/-! # Lemmas on reachable stores and on the exchange -/
namespace Migp
open Props

section
variable {E : Ext} {cfg : ServerConfig} {s : Server} {c : Client}

theorem suite_eq (hc : NewClient E cfg.toConfig = .ok c) (hs : NewServer E cfg = .ok s) :
    c.suite = s.suite := by
  obtain ⟨slow, S, _, _, _, h1, rfl⟩ := newClient_ok hc
  obtain ⟨slow', S', _, _, _, h2, _, rfl⟩ := newServer_ok hs
  have : E.suites cfg.oprfSuite = some S := h1
  rw [h2] at this
  injection this with this
  exact this.symm

/-- The exchange is a search in the bucket of the username, or does not depend on the store at all. -/
theorem exchange_cases (hc : NewClient E cfg.toConfig = .ok c) (hs : NewServer E cfg = .ok s)
    (u p : Bytes) (r : ZMod c.suite.q) :
    ((65536 < u.length ∨ 65536 < p.length ∨ cfg.bucketIDBitSize < 0 ∨ 32 < cfg.bucketIDBitSize) ∧
      ∃ q, ∀ kv, exchange E c s kv u p r = .panic q) ∨
    (Spec.tweak s.suite s.privateKey = 0 ∧
      ∃ e, ∀ kv, exchange E c s kv u p r = .ret NotInBreach none (some e)) ∨
    (u.length ≤ 65536 ∧ p.length ≤ 65536 ∧ Spec.tweak s.suite s.privateKey ≠ 0 ∧
      ∃ id secret, s.bucketID E u = .ok id ∧
        (r ≠ 0 → secret = entryKey E cfg s u p) ∧
        ∀ kv, exchange E c s kv u p r =
          finalizeLoop E c.bucketEncryptor secret (kv.store (BucketIDToHex id)) 0) := by
  by_cases hpan : 65536 < u.length ∨ 65536 < p.length ∨ cfg.bucketIDBitSize < 0 ∨ 32 < cfg.bucketIDBitSize
  · left
    obtain ⟨q, hq⟩ := (C02_request_panics_iff cfg.toConfig c hc u p r).1.mpr hpan
    refine ⟨hpan, q, fun kv => ?_⟩
    unfold exchange; rw [hq]
  · right
    have hb := C14_same_bucket cfg c s hc hs u
    obtain ⟨id, h1, -, h2⟩ := request_ok cfg.toConfig c hc u p (by omega) (by omega)
      (by show 0 ≤ cfg.bucketIDBitSize; omega) (by show cfg.bucketIDBitSize ≤ 32; omega) r
    have hv : (UInt32.ofNat cfg.version.toNat).toNat % 65536 = s.version.toNat := by
      have : s.version = cfg.version := by
        obtain ⟨slow', S', _, _, _, _, _, rfl⟩ := newServer_ok hs; rfl
      have h3 := cfg.version.toNat_lt
      rw [this, UInt32.toNat_ofNat']
      omega
    have hcv : c.version = cfg.version := by
      obtain ⟨slow', S', _, _, _, _, rfl⟩ := newClient_ok hc; rfl
    by_cases ht : Spec.tweak s.suite s.privateKey = 0
    · left
      refine ⟨ht, .oprfInverseZero, fun kv => ?_⟩
      unfold exchange
      rw [h2]
      dsimp only
      rw [(C17_errors s _ _).2.1 hv ht]
    · right
      refine ⟨by omega, by omega, ht, id, ?_⟩
      have hsuite := suite_eq hc hs
      -- the response
      have hresp : ∀ kv : KV, ∃ g, s.suite.de (c.suite.ser (r * c.suite.hashToElement
            (Spec.oprfInput E cfg.slowHasherID u p))) = some g ∧
          s.handleRequest ⟨UInt32.ofNat cfg.version.toNat, BucketIDToHex id,
            c.suite.ser (r * c.suite.hashToElement (Spec.oprfInput E cfg.slowHasherID u p))⟩ kv.get =
          .ok ⟨UInt32.ofNat cfg.version.toNat,
            s.suite.ser ((Spec.tweak s.suite s.privateKey)⁻¹ * g), kv.store (BucketIDToHex id)⟩ := by
        intro kv
        have : ∃ g, s.suite.de (c.suite.ser (r * c.suite.hashToElement
            (Spec.oprfInput E cfg.slowHasherID u p))) = some g := by
          rw [← hsuite]; exact ⟨_, c.suite.de_ser _⟩
        obtain ⟨g, hg⟩ := this
        refine ⟨g, hg, (C17_ok_iff _ _ _ _).mpr ⟨hv, ht, ?_, g, _, hg, rfl, rfl⟩⟩
        rw [← hexDecode_isSome_iff]
        unfold BucketIDToHex
        rw [hexDecode_hexEncode]; rfl
      obtain ⟨g, hg, -⟩ := hresp newKVStore
      have hsec : ∃ secret, c.suite.clientFinalize (Spec.oprfInput E cfg.slowHasherID u p) r
          (s.suite.ser ((Spec.tweak s.suite s.privateKey)⁻¹ * g)) OprfInfo = .ok secret := by
        unfold Suite.clientFinalize
        have : ∃ z, c.suite.de (s.suite.ser ((Spec.tweak s.suite s.privateKey)⁻¹ * g)) = some z := by
          rw [hsuite]; exact ⟨_, s.suite.de_ser _⟩
        obtain ⟨z, hz⟩ := this
        rw [hz]
        exact ⟨_, rfl⟩
      obtain ⟨secret, hsec⟩ := hsec
      refine ⟨secret, by rw [← hb]; exact h1, ?_, ?_⟩
      · intro hr
        obtain ⟨g', hg', h3⟩ := hresp newKVStore
        rw [hg] at hg'
        injection hg' with hg'
        subst hg'
        obtain ⟨key, k1, k2⟩ := C15_blinded_eq_direct cfg c s hc hs u p r hr _ _ h2 _ _ h3
        dsimp only at k2
        rw [deriveKey_ok hs u p (by omega) (by omega) ht] at k1
        injection k1 with k1
        change c.suite.clientFinalize _ r _ _ = _ at k2
        have := hsec.symm.trans k2
        injection this with this
        rw [this, ← k1]; rfl
      · intro kv
        unfold exchange
        rw [h2]
        dsimp only
        obtain ⟨g', hg', h3⟩ := hresp kv
        rw [hg] at hg'
        injection hg' with hg'
        subst hg'
        rw [h3]
        dsimp only
        unfold ClientRequestContext.finalize
        dsimp only
        rw [if_neg, hsec]
        rw [hcv, ne_eq, not_not, ← UInt16.toNat_inj, UInt16.toNat_ofNat', UInt32.toNat_ofNat']
        have h3 := cfg.version.toNat_lt
        omega

/-- Is this credential stored under this key? -/
def inBucket (E : Ext) (s : Server) (key : GoString) (x : Spec.Stored) : Bool :=
  match s.bucketID E x.username with
  | .ok id => BucketIDToHex id == key
  | _ => false

theorem inBucket_ok {x : Spec.Stored} {id : UInt32} (h : s.bucketID E x.username = .ok id)
    (key : GoString) : inBucket E s key x = (BucketIDToHex id == key) := by
  unfold inBucket; rw [h]

/-- Sizes of what can be stored. -/
def Fits (x : Spec.Stored) : Prop :=
  x.flag.toNat ≤ 3 ∧ x.username.length ≤ 65536 ∧ x.password.length ≤ 65536 ∧ x.metadata.length ≤ 8160

theorem bucket_append (a b : List Spec.RawEntry) :
    Spec.bucket (a ++ b) = Spec.bucket a ++ Spec.bucket b := by
  simp [Spec.bucket]

theorem bucket_storedRaw (xs : List Spec.Stored) (h : ∀ x ∈ xs, Fits x) :
    Spec.bucket (xs.map (storedRaw E cfg s)) = (xs.map (storedBytes E cfg s)).flatten := by
  unfold Spec.bucket
  rw [List.map_map]
  congr 1
  apply List.map_congr_left
  intro x hx
  exact storedRaw_bytes E cfg s x (h x hx).2.2.2

theorem filter_all {xs : List Spec.Stored} {u : Bytes} {id : UInt32}
    (hx : ∀ x ∈ xs, x.username = u) (hid : s.bucketID E u = .ok id) (key : GoString) :
    xs.filter (inBucket E s key) = if key = BucketIDToHex id then xs else [] := by
  split
  · rename_i h
    apply List.filter_eq_self.mpr
    intro x hxm
    rw [inBucket_ok (by rw [hx x hxm]; exact hid), h]
    simp
  · rename_i h
    apply List.filter_eq_nil_iff.mpr
    intro x hxm
    rw [inBucket_ok (by rw [hx x hxm]; exact hid)]
    simpa using fun e => h e.symm

/-- Appending entries of one username to its bucket. -/
theorem invariant_append {kv : KV} {db xs : List Spec.Stored} {u : Bytes} {id : UInt32}
    (ih : ∀ key, kv.store key = Spec.bucket ((db.filter (inBucket E s key)).map (storedRaw E cfg s)))
    (hx : ∀ x ∈ xs, x.username = u) (hf : ∀ x ∈ xs, Fits x) (hid : s.bucketID E u = .ok id)
    (key : GoString) :
    (kv.append (BucketIDToHex id) ((xs.map (storedBytes E cfg s)).flatten)).store key =
      Spec.bucket (((db ++ xs).filter (inBucket E s key)).map (storedRaw E cfg s)) := by
  rw [List.filter_append, List.map_append, bucket_append, filter_all hx hid, ← ih key]
  by_cases h : key = BucketIDToHex id
  · rw [if_pos h, bucket_storedRaw xs hf, h, KV.append_same]
  · rw [if_neg h, KV.append_other _ _ _ _ h]
    simp [Spec.bucket]

/-- The invariant of reachable stores. -/
theorem history_invariant (hs : NewServer E cfg = .ok s) {kv : KV} {db : List Spec.Stored}
    (h : History E s kv db) :
    (∀ key, kv.store key = Spec.bucket ((db.filter (inBucket E s key)).map (storedRaw E cfg s))) ∧
    (∀ x ∈ db, Fits x ∧ (∃ id, s.bucketID E x.username = .ok id)) ∧
    (db ≠ [] → Spec.tweak s.suite s.privateKey ≠ 0) := by
  induction h with
  | start => exact ⟨fun _ => rfl, by simp, by simp⟩
  | @inserted kv kv' db r vs _ hr hvs ih =>
    have ho := insertRecord_outcome hs r kv
    rw [hr] at ho
    cases ho with
    | done id vs' hid hst =>
      obtain rfl : vs = vs' := by
        have := hst.hvs; rw [hvs] at this; injection this
      refine ⟨fun key => invariant_append ih.1 (fun x hx => (mem_stored hx).1) (stored_bounds hst) hid key,
        ?_, fun _ => hst.ht⟩
      intro x hx
      rcases List.mem_append.mp hx with hx | hx
      · exact ih.2.1 x hx
      · exact ⟨stored_bounds hst x hx, id, by rw [(mem_stored hx).1]; exact hid⟩
  | @refused kv kv' db r e _ hr ih =>
    rw [C44_error_stores_nothing hs r kv kv' e hr]
    exact ih
  | @entry kv db u p flag m c id _ hc hid ih =>
    obtain ⟨hf, hu, hp, hm, ht, hkey⟩ :=
      (C05_encryptBucketEntry_iff cfg s hs u p flag m c).mp hc
    have hfit : Fits ⟨u, p, flag, m⟩ := ⟨hf, hu, hp, hm⟩
    have hc' := encryptBucketEntry_ok hs u p flag m hf hu hp ht hm
    rw [hc] at hc'
    injection hc' with hc'
    refine ⟨fun key => ?_, ?_, fun _ => ht⟩
    · have := invariant_append (xs := [⟨u, p, flag, m⟩]) ih.1 (by simp) (by simpa using hfit) hid key
      rw [← this, hc']
      simp only [List.map_cons, List.map_nil, List.flatten_cons, List.flatten_nil, List.append_nil]
      rfl
    · intro x hx
      rcases List.mem_append.mp hx with hx | hx
      · exact ih.2.1 x hx
      · obtain rfl := List.mem_singleton.mp hx
        exact ⟨hfit, id, hid⟩

/-- What a search in a reachable store with any secret returns. -/
theorem history_search (hs : NewServer E cfg = .ok s) {kv : KV} {db : List Spec.Stored}
    (h : History E s kv db) (enc : BucketEncryptor) (secret : Bytes) (key : GoString) :
    finalizeLoop E enc secret (kv.store key) 0 =
      match db.find? (fun x => inBucket E s key x &&
        decide (Spec.keyTag E.sha256 (entryKey E cfg s x.username x.password) = Spec.keyTag E.sha256 secret)) with
      | none => .ret NotInBreach none none
      | some x => openResult E secret (storedRaw E cfg s x) := by
  obtain ⟨h1, h2, -⟩ := history_invariant hs h
  rw [h1 key]
  have hwf : ∀ e ∈ (db.filter (inBucket E s key)).map (storedRaw E cfg s), e.WF := by
    intro e he
    obtain ⟨x, hx, rfl⟩ := List.mem_map.mp he
    exact storedRaw_wf E cfg s x (h2 x (List.mem_filter.mp hx).1).1.2.2.2
  have := finalizeLoop_bucket E enc secret _ hwf []
  rw [List.append_nil] at this
  rw [this]
  have e : Spec.firstMatch E.sha256 secret ((db.filter (inBucket E s key)).map (storedRaw E cfg s)) =
      (db.find? (fun x => inBucket E s key x &&
        decide (Spec.keyTag E.sha256 (entryKey E cfg s x.username x.password) =
          Spec.keyTag E.sha256 secret))).map (storedRaw E cfg s) := by
    unfold Spec.firstMatch
    rw [List.find?_map, List.find?_filter]
    congr 2
    funext a
    apply Bool.eq_iff_iff.mpr
    rw [Bool.and_eq_true]
    exact ⟨fun h => (of_decide_eq_true h), fun h => decide_eq_true h⟩
  rw [e]
  cases db.find? (fun x => inBucket E s key x &&
        decide (Spec.keyTag E.sha256 (entryKey E cfg s x.username x.password) =
          Spec.keyTag E.sha256 secret)) with
  | none => exact finalizeLoop_end E enc secret [] 0 (by simp)
  | some x => rfl

end

end Migp
