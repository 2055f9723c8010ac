import Verif.Props.Trust
import Verif.Props.Sharper
import Verif.Props.Programs
/-!
# C82: clients whose configuration is not that of the server

`cc` is the configuration of the client (from a file, or compiled in), `cfg` that of the server. Only hashers and encryptors that
exist can differ, so what is left is the version, the number of bucket bits, the slow hash and the suite.
-/
namespace Migp.Props
open Spec Bufio Http

section
variable {E : Ext} {cfg : ServerConfig} {cc : Config} {s : Server} {c : Client}

/-- The server that would have the client's configuration: it handles requests as the real one does. -/
theorem twin (hc : NewClient E cc = .ok c) (hs : NewServer E cfg = .ok s) (hv : cc.version = cfg.version)
    (hS : cc.oprfSuite = cfg.oprfSuite) :
    ∃ s', NewServer E ⟨cc, cfg.privateKey⟩ = .ok s' ∧ s'.suite = s.suite ∧ s'.privateKey = s.privateKey ∧
      s'.handleRequest = s.handleRequest := by
  obtain ⟨slow, S, h1, h2, h3, h4, h5, rfl⟩ := newServer_ok hs
  obtain ⟨slow', S', g1, g2, g3, g4, rfl⟩ := newClient_ok hc
  rw [hS, h4] at g4
  injection g4 with g4
  subst g4
  refine ⟨⟨cc.version, cc.bucketIDBitSize, NewSHA256BucketHasher, .hkdfSHA256, slow', S, cc.oprfSuite, cfg.privateKey⟩, ?_,
    rfl, rfl, ?_⟩
  · unfold NewServer
    dsimp only
    rw [g1, g2, g3, hS, h4]
    have b1 : NewBucketHasher 1 = .ok NewSHA256BucketHasher := rfl
    have b2 : NewBucketEncryptor 1 = .ok .hkdfSHA256 := rfl
    rw [b1, b2]
    simp only [Res.ok_bind]
    rw [if_pos h5]
  · funext req kv
    unfold Server.handleRequest
    dsimp only
    rw [hv]

/-- The stored credential `x` and the credential `(u, p)`, asked for by a client with configuration `cc`, have the same bucket
identifier and the same 20-byte tag. -/
def Meets (E : Ext) (S : Suite) (cfg : ServerConfig) (cc : Config) (x : Stored) (u p : Bytes) : Prop :=
  bucketNumber E cfg.bucketIDBitSize.toNat x.username = bucketNumber E cc.bucketIDBitSize.toNat u ∧
  keyTag E.sha256 (oprf S cfg.privateKey (oprfInput E cfg.slowHasherID x.username x.password)) =
    keyTag E.sha256 (oprf S cfg.privateKey (oprfInput E cc.slowHasherID u p))

/-- An exchange in terms of the bucket. -/
theorem mismatch_eq (hc : NewClient E cc = .ok c) (hs : NewServer E cfg = .ok s) (hv : cc.version = cfg.version)
    (hS : cc.oprfSuite = cfg.oprfSuite) {kv : KV} {db : List Stored} (h : History E s kv db) (u p : Bytes) (r : ZMod c.suite.q)
    (hr : r ≠ 0) (hu : u.length ≤ 65536) (hp : p.length ≤ 65536) (h0 : 0 ≤ cc.bucketIDBitSize) (h32 : cc.bucketIDBitSize ≤ 32)
    (ht : Spec.tweak s.suite s.privateKey ≠ 0) :
    ∃ id, c.bucketID E u = .ok id ∧ exchange E c s kv u p r =
      match db.find? (fun x => inBucket E s (BucketIDToHex id) x &&
        decide (keyTag E.sha256 (entryKey E cfg s x.username x.password) =
          keyTag E.sha256 (oprf s.suite s.privateKey (oprfInput E cc.slowHasherID u p)))) with
      | none => .ret NotInBreach none none
      | some x => openResult E (oprf s.suite s.privateKey (oprfInput E cc.slowHasherID u p)) (storedRaw E cfg s x) := by
  obtain ⟨s', hs', e1, e2, e3⟩ := twin hc hs hv hS
  have hex : exchange E c s kv u p r = exchange E c s' kv u p r := by
    unfold exchange
    rw [e3]
  have hk : entryKey E ⟨cc, cfg.privateKey⟩ s' u p = oprf s.suite s.privateKey (oprfInput E cc.slowHasherID u p) := by
    unfold entryKey
    rw [e1, e2]
  rcases exchange_cases (cfg := ⟨cc, cfg.privateKey⟩) hc hs' u p r with
    ⟨h1, -⟩ | ⟨h1, -⟩ | ⟨-, -, -, id, secret, h1, h2, h3⟩
  · dsimp only at h1; omega
  · rw [e1, e2] at h1; exact absurd h1 ht
  · refine ⟨id, (C14_same_bucket ⟨cc, cfg.privateKey⟩ c s' hc hs' u).trans h1, ?_⟩
    rw [hex, h3 kv, h2 hr, hk]
    exact history_search hs h _ _ _

theorem server_key (hs : NewServer E cfg = .ok s) : s.privateKey = cfg.privateKey := by
  obtain ⟨slow, S, h1, h2, h3, h4, h5, rfl⟩ := newServer_ok hs
  rfl

/-- Being in the bucket a client asks for. -/
theorem inBucket_number (hc : NewClient E cc = .ok c) (hs : NewServer E cfg = .ok s) {kv : KV} {db : List Stored}
    (h : History E s kv db) {u : Bytes} (hu : u.length ≤ 65536) (h0 : 0 ≤ cc.bucketIDBitSize) (h32 : cc.bucketIDBitSize ≤ 32)
    {id : UInt32} (hid : c.bucketID E u = .ok id) {x : Stored} (hx : x ∈ db) :
    inBucket E s (BucketIDToHex id) x = true ↔
      bucketNumber E cfg.bucketIDBitSize.toNat x.username = bucketNumber E cc.bucketIDBitSize.toNat u := by
  obtain ⟨-, g2, -⟩ := history_invariant hs h
  obtain ⟨hf, id', hid'⟩ := g2 x hx
  obtain ⟨id2, k1, k2, -⟩ := C03_client_bucketID cc c hc u hu h0 h32
  rw [hid] at k1; cases k1
  have hb := fits_range hs hid'
  obtain ⟨id3, k3, k4, -⟩ := (C03_server_bucketID cfg s hs x.username).1 hf.2.1 hb.1 hb.2
  rw [hid'] at k3; cases k3
  rw [inBucket_ok hid', beq_iff_eq, ← k2, ← k4]
  constructor
  · intro e; rw [BucketIDToHex_inj e]
  · intro e; rw [UInt32.toNat_inj.mp e]

/-- C82: a client that agrees with the server in version and suite is never told that anything else differs: it gets a match
exactly if a stored credential has the bucket identifier and the 20-byte tag of its request, and `NotInBreach` without an error
otherwise. -/
theorem C82_decides (hc : NewClient E cc = .ok c) (hs : NewServer E cfg = .ok s) (hv : cc.version = cfg.version)
    (hS : cc.oprfSuite = cfg.oprfSuite) {kv : KV} {db : List Stored} (h : History E s kv db) (u p : Bytes) (r : ZMod c.suite.q)
    (hr : r ≠ 0) (hu : u.length ≤ 65536) (hp : p.length ≤ 65536) (h0 : 0 ≤ cc.bucketIDBitSize) (h32 : cc.bucketIDBitSize ≤ 32)
    (ht : Spec.tweak s.suite s.privateKey ≠ 0) :
    (exchange E c s kv u p r = .ret NotInBreach none none ∧ ∀ x ∈ db, ¬ Meets E s.suite cfg cc x u p) ∨
    (∃ x ∈ db, Meets E s.suite cfg cc x u p) ∧ ∃ st m, exchange E c s kv u p r = .ret st (some m) none := by
  obtain ⟨id, hid, he⟩ := mismatch_eq hc hs hv hS h u p r hr hu hp h0 h32 ht
  obtain ⟨-, g2, -⟩ := history_invariant hs h
  rw [he]
  have hmeets : ∀ x ∈ db, (inBucket E s (BucketIDToHex id) x &&
        decide (keyTag E.sha256 (entryKey E cfg s x.username x.password) =
          keyTag E.sha256 (oprf s.suite s.privateKey (oprfInput E cc.slowHasherID u p)))) = true ↔
      Meets E s.suite cfg cc x u p := by
    intro x hx
    rw [Bool.and_eq_true, inBucket_number hc hs h hu h0 h32 hid hx, decide_eq_true_eq]
    unfold Meets entryKey
    rw [server_key hs]
  cases hfind : db.find? _ with
  | none =>
    left
    refine ⟨rfl, fun x hx hm => ?_⟩
    exact List.find?_eq_none.mp hfind x hx ((hmeets x hx).mpr hm)
  | some x =>
    right
    have hm := List.mem_of_find?_eq_some hfind
    have hpx := List.find?_some hfind
    exact ⟨⟨x, hm, (hmeets x hm).mp hpx⟩, (open_stored x (g2 x hm).1 _).1⟩

/-! ## The number of bucket bits -/

theorem bucketNumber_split (E : Ext) (u : Bytes) {k m : Nat} (hkm : k ≤ m) (hm : m ≤ 256) :
    ∃ low, bucketNumber E m u = bucketNumber E k u * 2 ^ (m - k) + low ∧ low < 2 ^ (m - k) := by
  have hl : (bitsOf (E.sha256 (bucketPreimage u))).length = 256 := by
    have h8 : ∀ b : Bytes, (bitsOf b).length = 8 * b.length := by
      intro b
      induction b with
      | nil => rfl
      | cons x b ih =>
        have : bitsOf (x :: b) = bitsOfByte x ++ bitsOf b := rfl
        rw [this, List.length_append, ih, bitsOfByte_length, List.length_cons]
        omega
    rw [h8, E.sha256_len]
  unfold bucketNumber
  generalize bitsOf (E.sha256 (bucketPreimage u)) = l at hl
  refine ⟨natOfBits ((l.take m).drop k), ?_, ?_⟩
  · conv => lhs; rw [← List.take_append_drop k (l.take m), natOfBits_append]
    rw [List.take_take, Nat.min_eq_left hkm, List.length_drop, List.length_take, hl, Nat.min_eq_left hm]
  · have := natOfBits_lt ((l.take m).drop k)
    rwa [List.length_drop, List.length_take, hl, Nat.min_eq_left hm] at this

/-- The bucket numbers of a username for two different numbers of bits are equal only if both are zero. -/
theorem bucketNumber_two (E : Ext) (u : Bytes) {k m : Nat} (hne : k ≠ m) (hk : k ≤ 256) (hm : m ≤ 256) :
    bucketNumber E k u = bucketNumber E m u ↔ bucketNumber E (max k m) u = 0 := by
  have key : ∀ {k m : Nat}, k < m → m ≤ 256 → (bucketNumber E k u = bucketNumber E m u ↔ bucketNumber E m u = 0) := by
    intro k m hkm hm
    obtain ⟨low, h1, h2⟩ := bucketNumber_split E u (Nat.le_of_lt hkm) hm
    have hpow : 2 ≤ 2 ^ (m - k) := by
      have : 2 ^ 1 ≤ 2 ^ (m - k) := Nat.pow_le_pow_right (by decide) (by omega)
      omega
    generalize bucketNumber E k u = a at h1
    generalize bucketNumber E m u = b at h1
    generalize 2 ^ (m - k) = d at h1 h2 hpow
    constructor
    · intro e
      subst e
      have : 2 * a ≤ a * d := by rw [Nat.mul_comm]; exact Nat.mul_le_mul_left a hpow
      omega
    · intro e
      rw [e] at h1
      have : a ≤ a * d := Nat.le_mul_of_pos_right a (by omega)
      omega
  rcases Nat.lt_or_gt_of_ne hne with h | h
  · rw [Nat.max_eq_right (Nat.le_of_lt h)]
    exact key h hm
  · rw [Nat.max_eq_left (Nat.le_of_lt h), eq_comm]
    exact key h hk

/-- C82: with another number of bucket bits a client is told `NotInBreach`, without an error, about every password of every
username, in the store or not, unless the hash of the username begins with as many zeros as the larger number of bits (or a
credential of *another* username has the same 20-byte tag). For those other usernames the answer is as usual. -/
theorem C82_bits (hc : NewClient E cc = .ok c) (hs : NewServer E cfg = .ok s) (hv : cc.version = cfg.version)
    (hS : cc.oprfSuite = cfg.oprfSuite) (hslow : cc.slowHasherID = cfg.slowHasherID)
    (hbits : cc.bucketIDBitSize ≠ cfg.bucketIDBitSize) {kv : KV} {db : List Stored} (h : History E s kv db) (u p : Bytes)
    (r : ZMod c.suite.q) (hr : r ≠ 0) (hu : u.length ≤ 65536) (hp : p.length ≤ 65536) (h0 : 0 ≤ cc.bucketIDBitSize)
    (h32 : cc.bucketIDBitSize ≤ 32) (g0 : 0 ≤ cfg.bucketIDBitSize) (g32 : cfg.bucketIDBitSize ≤ 32)
    (ht : Spec.tweak s.suite s.privateKey ≠ 0) :
    (bucketNumber E (max cfg.bucketIDBitSize.toNat cc.bucketIDBitSize.toNat) u ≠ 0 →
      exchange E c s kv u p r = .ret NotInBreach none none ∨ ∃ x ∈ db, x.username ≠ u ∧ Meets E s.suite cfg cc x u p) ∧
    (bucketNumber E (max cfg.bucketIDBitSize.toNat cc.bucketIDBitSize.toNat) u = 0 →
      ∀ c0, NewClient E cfg.toConfig = .ok c0 → ∀ r0 : ZMod c0.suite.q, r0 ≠ 0 →
        exchange E c s kv u p r = exchange E c0 s kv u p r0) := by
  have htwo := bucketNumber_two E u (k := cfg.bucketIDBitSize.toNat) (m := cc.bucketIDBitSize.toNat) (by omega) (by omega)
    (by omega)
  constructor
  · intro hne
    rcases C82_decides hc hs hv hS h u p r hr hu hp h0 h32 ht with ⟨h1, -⟩ | ⟨⟨x, hx, hm⟩, -⟩
    · exact .inl h1
    · refine .inr ⟨x, hx, ?_, hm⟩
      intro e
      have := hm.1
      rw [e] at this
      exact hne (htwo.mp this)
  · intro hz c0 hc0 r0 hr0
    obtain ⟨id, hid, he⟩ := mismatch_eq hc hs hv hS h u p r hr hu hp h0 h32 ht
    obtain ⟨id0, hid0, he0⟩ := mismatch_eq (cc := cfg.toConfig) hc0 hs rfl rfl h u p r0 hr0 hu hp g0 g32 ht
    obtain ⟨id2, k1, k2, -⟩ := C03_client_bucketID cc c hc u hu h0 h32
    obtain ⟨id3, k3, k4, -⟩ := C03_client_bucketID cfg.toConfig c0 hc0 u hu g0 g32
    rw [hid] at k1; cases k1
    rw [hid0] at k3; cases k3
    have e : id0 = id := UInt32.toNat_inj.mp (by rw [k2, k4]; exact htwo.mpr hz)
    rw [he, he0, e, hslow]

/-! ## The slow hash -/

/-- C82: with the other slow hash a client is told `NotInBreach`, without an error, about every credential, in the store or not,
unless a stored credential has the same 20-byte tag although something else is hashed for it, or what scrypt makes of one
credential is, byte for byte, the encoding of the other, which then has 28 bytes. -/
theorem C82_slow (hc : NewClient E cc = .ok c) (hs : NewServer E cfg = .ok s) (hv : cc.version = cfg.version)
    (hS : cc.oprfSuite = cfg.oprfSuite) (hslow : cc.slowHasherID ≠ cfg.slowHasherID)
    {kv : KV} {db : List Stored} (h : History E s kv db) (u p : Bytes)
    (r : ZMod c.suite.q) (hr : r ≠ 0) (hu : u.length ≤ 65536) (hp : p.length ≤ 65536) (h0 : 0 ≤ cc.bucketIDBitSize)
    (h32 : cc.bucketIDBitSize ≤ 32) (ht : Spec.tweak s.suite s.privateKey ≠ 0) :
    exchange E c s kv u p r = .ret NotInBreach none none ∨
    ∃ x ∈ db, Meets E s.suite cfg cc x u p ∧
      (oprfInput E cfg.slowHasherID x.username x.password ≠ oprfInput E cc.slowHasherID u p ∨
        u.length + p.length = 28 ∨ x.username.length + x.password.length = 28) := by
  rcases C82_decides hc hs hv hS h u p r hr hu hp h0 h32 ht with ⟨h1, -⟩ | ⟨⟨x, hx, hm⟩, -⟩
  · exact .inl h1
  · refine .inr ⟨x, hx, hm, ?_⟩
    by_cases e : oprfInput E cfg.slowHasherID x.username x.password = oprfInput E cc.slowHasherID u p
    · right
      have hl := congrArg List.length e
      have hcred : ∀ a b : Bytes, (credentialW a b).length = 4 + a.length + b.length := by
        intro a b
        have h2 : ∀ n, (len16w n).length = 2 := fun _ => rfl
        unfold credentialW
        rw [List.length_append, List.length_append, List.length_append, h2, h2]
        omega
      unfold oprfInput slowHash at hl
      by_cases z1 : cfg.slowHasherID = 0
      · by_cases z2 : cc.slowHasherID = 0
        · exact absurd (z2.trans z1.symm) hslow
        · rw [if_pos z1, if_neg z2, E.scrypt_len, hcred] at hl
          right; omega
      · by_cases z2 : cc.slowHasherID = 0
        · rw [if_neg z1, if_pos z2, E.scrypt_len, hcred] at hl
          left; omega
        · exfalso
          obtain ⟨slow, S, _, _, n1, _, _, _⟩ := newServer_ok hs
          obtain ⟨slow', S', _, _, n2, _, _⟩ := newClient_ok hc
          have e1 := newSlowHasher_ok n1
          have e2 := newSlowHasher_ok n2
          rcases e1 with e1 | e1
          · exact z1 e1.1
          · rcases e2 with e2 | e2
            · exact z2 e2.1
            · exact hslow (e2.1.trans e1.1.symm)
    · exact .inl e

/-! ## The version, and everything -/

/-- C82: another version is always noticed: every request is refused, whatever it asks for. -/
theorem C82_version (hc : NewClient E cc = .ok c) (hs : NewServer E cfg = .ok s) (hv : cc.version ≠ cfg.version)
    (kv : KV) (u p : Bytes) (r : ZMod c.suite.q) (hu : u.length ≤ 65536) (hp : p.length ≤ 65536)
    (h0 : 0 ≤ cc.bucketIDBitSize) (h32 : cc.bucketIDBitSize ≤ 32) :
    exchange E c s kv u p r = .ret NotInBreach none (some .versionMismatch) := by
  obtain ⟨id, -, -, h2⟩ := request_ok cc c hc u p hu hp h0 h32 r
  have hs' : s.version = cfg.version := by
    obtain ⟨slow', S', _, _, _, _, _, rfl⟩ := newServer_ok hs; rfl
  unfold exchange
  rw [h2]
  dsimp only
  rw [(C17_errors s _ _).1]
  dsimp only
  intro e
  rw [hs'] at e
  have h3 := cc.version.toNat_lt
  rw [UInt32.toNat_ofNat'] at e
  exact hv (UInt16.toNat_inj.mp (by omega))

/-- C82: whatever the difference (of suites too), a match is a coincidence of bucket identifiers and of tags: the tag of a stored
credential, and the one of what the client asks for, hashed with its element as the server has read, multiplied and returned it
and the client has read that and unblinded it. -/
theorem C82_match (hc : NewClient E cc = .ok c) (hs : NewServer E cfg = .ok s) {kv : KV} {db : List Stored}
    (h : History E s kv db) (u p : Bytes) (r : ZMod c.suite.q) (st : BreachStatus) (m : Bytes) (err : Option Err)
    (hq : exchange E c s kv u p r = .ret st (some m) err) :
    ∃ x ∈ db, bucketNumber E cfg.bucketIDBitSize.toNat x.username = bucketNumber E cc.bucketIDBitSize.toNat u ∧
      ∃ g z, s.suite.de (c.suite.ser (r * c.suite.hashToElement (oprfInput E cc.slowHasherID u p))) = some g ∧
        c.suite.de (s.suite.ser ((tweak s.suite cfg.privateKey)⁻¹ * g)) = some z ∧
        keyTag E.sha256 (oprf s.suite cfg.privateKey (oprfInput E cfg.slowHasherID x.username x.password)) =
        keyTag E.sha256 (c.suite.finalizeHash (oprfInput E cc.slowHasherID u p) info (c.suite.ser (r⁻¹ * z))) := by
  have hpan : ¬ (65536 < u.length ∨ 65536 < p.length ∨ cc.bucketIDBitSize < 0 ∨ 32 < cc.bucketIDBitSize) := by
    intro hpan
    obtain ⟨q, hq'⟩ := (C02_request_panics_iff cc c hc u p r).1.mpr hpan
    unfold exchange at hq
    rw [hq'] at hq
    cases hq
  obtain ⟨id, hid, -, h2⟩ := request_ok cc c hc u p (by omega) (by omega) (by omega) (by omega) r
  unfold exchange at hq
  rw [h2] at hq
  dsimp only at hq
  cases hh : s.handleRequest ⟨UInt32.ofNat cc.version.toNat, BucketIDToHex id,
                               c.suite.ser (r * c.suite.hashToElement (Spec.oprfInput E cc.slowHasherID u p))⟩ kv.get with
  | panic q => rw [hh] at hq; cases hq
  | err e => rw [hh] at hq; cases hq
  | ok resp =>
    rw [hh] at hq
    dsimp only at hq
    obtain ⟨-, -, -, g, contents, hg, hk, hresp⟩ := (C17_ok_iff _ _ _ _).mp hh
    have hcont : contents = kv.store (BucketIDToHex id) := (Res.ok.inj hk).symm
    unfold ClientRequestContext.finalize at hq
    split at hq
    · cases hq
    · dsimp only at hq
      unfold Suite.clientFinalize at hq
      cases hde : c.suite.de resp.evaluatedElement with
      | none => rw [hde] at hq; cases hq
      | some z =>
        rw [hde, hresp] at hq
        dsimp only at hq
        rw [hcont, history_search hs h] at hq
        split at hq
        · cases hq
        · rename_i x hx
          have hm := List.mem_of_find?_eq_some hx
          have hpx := List.find?_some hx
          rw [Bool.and_eq_true, inBucket_number hc hs h (by omega) (by omega) (by omega) hid hm, decide_eq_true_eq] at hpx
          refine ⟨x, hm, hpx.1, g, z, hg, ?_, ?_⟩
          · rw [hresp] at hde
            dsimp only at hde
            rw [server_key hs] at hde
            exact hde
          have := hpx.2
          unfold entryKey at this
          rw [server_key hs] at this
          exact this

/-! ## Over HTTP, and the programs -/

theorem mismatch_query (hc : NewClient E cc = .ok c) (hs : NewServer E cfg = .ok s) (hv : cc.version = cfg.version)
    (hS : cc.oprfSuite = cfg.oprfSuite) (hlen : s.suite.elemLen = 33) (ht : Spec.tweak s.suite s.privateKey ≠ 0) (kv : KV)
    (stale : Nat → Nat → UInt8) (u p : Bytes) (rand : (S : Suite) → ZMod S.q) (hr : rand c.suite ≠ 0)
    (he : c.suite.hashToElement (Spec.oprfInput E cc.slowHasherID u p) ≠ 0) :
    Query E cc (deliver s kv stale (ascii "/evaluate")) u p rand = exchange E c s kv u p (rand c.suite) := by
  obtain ⟨s', hs', e1, e2, e3⟩ := twin hc hs hv hS
  have hd : deliver s kv stale (ascii "/evaluate") = deliver s' kv stale (ascii "/evaluate") := by
    have hr : route (ascii "/evaluate") = .evaluate := by decide
    funext body
    unfold deliver serve
    rw [hr]
    dsimp only
    unfold handleEvaluate
    rw [e3]
  have hex : exchange E c s kv u p (rand c.suite) = exchange E c s' kv u p (rand c.suite) := by
    unfold exchange
    rw [e3]
  rw [hd, hex]
  exact C54_query_eq_exchange (cfg := ⟨cc, cfg.privateKey⟩) hc hs' (by rw [e1]; exact hlen) (by rw [e1, e2]; exact ht) kv stale u p
    rand hr he

/-- C82: the client program with such a configuration reports every credential as clean, and ends with status 0; if the version is
the usual one it does not even log a warning. -/
theorem C82_program_silent (hc : NewClient E cc = .ok c) (hs : NewServer E cfg = .ok s) (hv : cc.version = cfg.version)
    (hS : cc.oprfSuite = cfg.oprfSuite) (hlen : s.suite.elemLen = 33) (ht : Spec.tweak s.suite s.privateKey ≠ 0)
    {kv : KV} {db : List Stored} (h : History E s kv db) (h0 : 0 ≤ cc.bucketIDBitSize) (h32 : cc.bucketIDBitSize ≤ 32)
    {cargs : ClientArgs} {get : Transport} {rand : Nat → (S : Suite) → ZMod S.q} {stale1 stale2 : Nat → Nat → UInt8}
    {chunk : Nat → Nat} {file : Bytes} (hcc : clientConfig cargs.config get stale2 = some cc) (hcd : cargs.dumpConfig = false)
    (hcf : cargs.infile = some file) {parts : List (Option (Bytes × Bytes))} (hp : ReadsAs file parts)
    (hr : ∀ i, rand i c.suite ≠ 0)
    (he : ∀ x ∈ credentials parts, c.suite.hashToElement (Spec.oprfInput E cc.slowHasherID x.1 x.2) ≠ 0)
    (hno : ∀ x ∈ credentials parts, ∀ y ∈ db, ¬ Meets E s.suite cfg cc y x.1 x.2) :
    clientMain E cargs get (fun _ => deliver s kv stale1 (ascii "/evaluate")) rand stale2 chunk =
      { stdout := (credentials parts).flatMap (fun x => clientObject cargs.showPassword x.1 x.2 NotInBreach none ++ [10])
        warned := decide (cc.version ≠ DefaultMIGPVersion)
        exit := .ok } := by
  rw [clientMain_creds hcc hcd hcf hp]
  dsimp only
  have hl : ∀ x ∈ credentials parts, x.1.length ≤ 65536 ∧ x.2.length ≤ 65536 :=
    fun x hx => by have := readsAs_lengths hp (u := x.1) (p := x.2) hx; omega
  generalize credentials parts = creds at he hno hl
  have key : ∀ k, queryCreds cargs.showPassword
      (fun k u p => Query E cc (deliver s kv stale1 (ascii "/evaluate")) u p (rand k)) k creds =
      (creds.flatMap (fun x => clientObject cargs.showPassword x.1 x.2 NotInBreach none ++ [10]), .ok) := by
    induction creds with
    | nil => intro k; rfl
    | cons x creds ih =>
      intro k
      obtain ⟨u, p⟩ := x
      have hx := List.mem_cons_self (a := (u, p)) (l := creds)
      rw [queryCreds, mismatch_query hc hs hv hS hlen ht kv stale1 u p (rand k) (hr k) (he _ hx)]
      have hclean : exchange E c s kv u p (rand k c.suite) = .ret NotInBreach none none := by
        rcases C82_decides hc hs hv hS h u p (rand k c.suite) (hr k) (hl _ hx).1 (hl _ hx).2 h0 h32 ht with
          ⟨h1, -⟩ | ⟨⟨y, hy, hm⟩, -⟩
        · exact h1
        · exact absurd hm (hno _ hx y hy)
      rw [hclean]
      dsimp only
      rw [ih (fun y hy => he y (List.mem_cons_of_mem _ hy)) (fun y hy => hno y (List.mem_cons_of_mem _ hy))
        (fun y hy => hl y (List.mem_cons_of_mem _ hy)) (k + 1)]
      rfl
  rw [key 0]

/-- C82: with another version the client program prints nothing and ends with status 1 at its first credential. -/
theorem C82_program_version (hc : NewClient E cc = .ok c) (hs : NewServer E cfg = .ok s) (hv : cc.version ≠ cfg.version)
    (kv : KV) (h0 : 0 ≤ cc.bucketIDBitSize) (h32 : cc.bucketIDBitSize ≤ 32)
    {cargs : ClientArgs} {get : Transport} {rand : Nat → (S : Suite) → ZMod S.q} {stale1 stale2 : Nat → Nat → UInt8}
    {chunk : Nat → Nat} {file : Bytes} (hcc : clientConfig cargs.config get stale2 = some cc) (hcd : cargs.dumpConfig = false)
    (hcf : cargs.infile = some file) {parts : List (Option (Bytes × Bytes))} (hp : ReadsAs file parts)
    (hne : credentials parts ≠ []) :
    clientMain E cargs get (fun _ => deliver s kv stale1 (ascii "/evaluate")) rand stale2 chunk =
      { stdout := [], warned := decide (cc.version ≠ DefaultMIGPVersion), exit := .failure } := by
  rw [clientMain_creds hcc hcd hcf hp]
  dsimp only
  have hl : ∀ x ∈ credentials parts, x.1.length ≤ 65536 ∧ x.2.length ≤ 65536 :=
    fun x hx => by have := readsAs_lengths hp (u := x.1) (p := x.2) hx; omega
  generalize credentials parts = creds at hne hl
  cases creds with
  | nil => exact absurd rfl hne
  | cons x creds =>
    obtain ⟨u, p⟩ := x
    have hx := List.mem_cons_self (a := (u, p)) (l := creds)
    have hq : Query E cc (deliver s kv stale1 (ascii "/evaluate")) u p (rand 0) = .ret NotInBreach none (some (.httpStatus 500)) := by
      obtain ⟨id, -, -, h2⟩ := request_ok cc c hc u p (hl _ hx).1 (hl _ hx).2 h0 h32 (rand 0 c.suite)
      have hs' : s.version = cfg.version := by
        obtain ⟨slow', S', _, _, _, _, _, rfl⟩ := newServer_ok hs; rfl
      unfold Query
      rw [hc]
      dsimp only
      rw [h2]
      dsimp only
      rw [(deliver_evaluate s kv stale1 _ _ (hexDecode_hexEncode (be32 id))).1 _ ((C17_errors s _ _).1 _)]
      · rfl
      · dsimp only
        intro e
        rw [hs'] at e
        have h3 := cc.version.toNat_lt
        rw [UInt32.toNat_ofNat'] at e
        exact hv (UInt16.toNat_inj.mp (by omega))
    rw [queryCreds, hq]

end

/-! ## Concrete cases -/

theorem reads_one : ReadsAs (ascii "user:abc") [some (ascii "user", ascii "abc")] := by
  refine ⟨[ascii "user:abc"], [ascii "user:abc"], .last _ (by decide) (by decide), ?_, .cons ⟨rfl, by decide⟩ .nil⟩
  have : ([ascii "user:abc"] : List Bytes).takeWhile (fun l => l.length ≤ 65535) = [ascii "user:abc"] := by decide
  rw [this]
  exact .cons (dropCR_chomped _) .nil

theorem config_file (cc : Config) (hb : IsGoInt cc.bucketIDBitSize) (get : Transport) (stale : Nat → Nat → UInt8) :
    clientConfig (some (some cc.marshalJSON)) get stale = some cc := by
  unfold clientConfig
  dsimp only
  rw [(C53_config cc Config.zero hb stale).1]
  rfl

/-- C82_decides, C82_bits, C82_program_silent: the server has stored `user:abc` in 2^20 buckets, the client thinks of 2^16: the
client program prints that the credential is not in a breach. -/
example (get : Transport) (stale1 stale2 : Nat → Nat → UInt8) (chunk : Nat → Nat) (rand : Nat → (S : Suite) → ZMod S.q)
    (hr : ∀ i, rand i Example.toySuite ≠ 0) : ∃ kv,
    insertRecord Example.ext Example.server rec0 newKVStore = (kv, .ok ()) ∧
    clientMain Example.ext
      ⟨some (some ({ DefaultConfig with bucketIDBitSize := 16 } : Config).marshalJSON), false, false, some (ascii "user:abc")⟩
      get (fun _ => deliver Example.server kv stale1 (ascii "/evaluate")) rand stale2 chunk =
      ⟨ascii "{\"username\":\"user\",\"status\":\"password not in breach\"}\n", false, .ok⟩ := by
  obtain ⟨kv, hi, hh⟩ := example_history
  refine ⟨kv, hi, ?_⟩
  rw [C82_program_silent (cc := { DefaultConfig with bucketIDBitSize := 16 }) (c := { Example.client with bucketIDBitSize := 16 })
    rfl Example.newServer_eq rfl rfl rfl example_tweak hh (by decide) (by decide)
    (config_file _ (by constructor <;> decide) _ _) rfl rfl reads_one hr (fun x _ => toy_hash_ne _)]
  · decide +kernel
  · intro x hx y hy hm
    have hx : x = (ascii "user", ascii "abc") := by simpa [credentials] using hx
    have hu : y.username = ascii "user" := by
      rcases List.mem_cons.mp hy with rfl | hy
      · rfl
      rcases List.mem_cons.mp hy with rfl | hy
      · rfl
      · rw [List.mem_singleton] at hy
        subst hy
        rfl
    have h1 := hm.1
    rw [hx, hu] at h1
    revert h1
    decide +kernel

/-- C82_slow: the client does not use scrypt. -/
example (r : ZMod Example.toySuite.q) (hr : r ≠ 0) : ∃ kv,
    insertRecord Example.ext Example.server rec0 newKVStore = (kv, .ok ()) ∧
    exchange Example.ext { Example.client with slowHasher := .null } Example.server kv (ascii "user") (ascii "abc") r =
      .ret NotInBreach none none := by
  obtain ⟨kv, hi, hh⟩ := example_history
  refine ⟨kv, hi, ?_⟩
  rcases C82_slow (cc := { DefaultConfig with slowHasherID := 0 }) (c := { Example.client with slowHasher := .null }) rfl
    Example.newServer_eq rfl rfl (by decide) hh (ascii "user") (ascii "abc") r hr (by decide) (by decide) (by decide) (by decide)
    example_tweak with h | ⟨x, hx, hm, -⟩
  · exact h
  · exfalso
    have h := hm.2
    rcases List.mem_cons.mp hx with rfl | hx
    · revert h; decide +kernel
    rcases List.mem_cons.mp hx with rfl | hx
    · revert h; decide +kernel
    · rw [List.mem_singleton] at hx
      subst hx
      revert h; decide +kernel

/-- C82_version, C82_program_version: a client of version 2. -/
example (kv : KV) (get : Transport) (stale1 stale2 : Nat → Nat → UInt8) (chunk : Nat → Nat) (rand : Nat → (S : Suite) → ZMod S.q)
    (r : ZMod Example.toySuite.q) :
    exchange Example.ext { Example.client with version := 2 } Example.server kv (ascii "user") (ascii "abc") r =
      .ret NotInBreach none (some .versionMismatch) ∧
    clientMain Example.ext
      ⟨some (some ({ DefaultConfig with version := 2 } : Config).marshalJSON), false, false, some (ascii "user:abc")⟩
      get (fun _ => deliver Example.server kv stale1 (ascii "/evaluate")) rand stale2 chunk = ⟨[], true, .failure⟩ :=
  ⟨C82_version (cc := { DefaultConfig with version := 2 }) (c := { Example.client with version := 2 }) rfl Example.newServer_eq
    (by decide) kv _ _ r (by decide) (by decide) (by decide) (by decide),
   C82_program_version (cc := { DefaultConfig with version := 2 }) (c := { Example.client with version := 2 }) rfl
    Example.newServer_eq (by decide) kv (by decide) (by decide) (config_file _ (by constructor <;> decide) _ _) rfl rfl reads_one
    (by decide)⟩

end Migp.Props
