import Verif.P256.Suite
import Verif.P256.Wire
import Verif.Props.Protocol
import Verif.Props.History
import Verif.Props.Encoding
import Verif.Props.Sharper
/-!
# C91: the default suite with the real group

All other theorems hold for any libraries that satisfy the laws of `Ext`. Here the libraries are the real ones: SHA-256,
scrypt and the group of P-256 (`P256.ext`); the laws are proved for them, and with the group at hand more can be
said of elements on the wire. Points and their encodings are in `Verif.Spec.P256`.
-/
namespace Migp.Props
open WeierstrassCurve P256 Spec

/-- C91: the points form a group of prime order, so that there are no small subgroups: every point but infinity
generates all of them. -/
theorem C91_group : P256.q.Prime ∧ Nat.card W.Point = P256.q ∧
    ∀ P : W.Point, P ≠ 0 → addOrderOf P = P256.q ∧ ∀ Q, ∃ n : ℕ, Q = n • P := by
  refine ⟨prime_q, card_eq, fun P hP => ?_⟩
  have ho : addOrderOf P = P256.q := by
    have hd : addOrderOf P ∣ P256.q := card_eq ▸ addOrderOf_dvd_natCard P
    rcases (Nat.dvd_prime prime_q).mp hd with h | h
    · exact absurd (AddMonoid.addOrderOf_eq_one_iff.mp h) hP
    · exact h
  refine ⟨ho, fun Q => ?_⟩
  have hf : Finite W.Point := Nat.finite_of_card_ne_zero (by rw [card_eq]; exact prime_q.ne_zero)
  have hm : Q ∈ AddSubgroup.zmultiples P := by
    have ht : AddSubgroup.zmultiples P = ⊤ := by
      apply AddSubgroup.eq_top_of_card_eq
      rw [Nat.card_zmultiples, ho, card_eq]
    rw [ht]
    trivial
  obtain ⟨n, hn⟩ := (mem_multiples_iff_mem_zmultiples (x := P) (y := Q)).mpr hm
  exact ⟨n, hn.symm⟩

/-- C91: bytes encode at most one point; infinity has one encoding, any other point has exactly two, of 33 and of 65 bytes. -/
theorem C91_encodings : (∀ P Q b, WireForm P b → WireForm Q b → P = Q) ∧
    (∀ b, WireForm 0 b ↔ b = [0]) ∧
    ∀ P : W.Point, P ≠ 0 → ∃ b b', b.length = 33 ∧ b'.length = 65 ∧ ∀ a, WireForm P a ↔ a = b ∨ a = b' := by
  refine ⟨fun P Q b h1 h2 => ?_, fun b => ?_, fun P hP => ?_⟩
  · have e := (wireForm_iff P b).mp h1
    rw [(wireForm_iff Q b).mp h2] at e
    injection e with e
    exact e.symm
  · rw [wireForm_iff, de_eq_some_iff]
    constructor
    · rintro (h | ⟨x, y, hn, h, -⟩)
      · exact h
      · cases h
    · intro h
      exact .inl h
  · rcases P with _ | ⟨x, y, hn⟩
    · exact absurd rfl hP
    · refine ⟨ser (.some x y hn), full x y, ser_length _ hP, ?_, fun a => ?_⟩
      · unfold full
        rw [List.length_cons, List.length_append, toBytes_length, toBytes_length]
      · rw [wireForm_iff, de_eq_some_iff]
        constructor
        · rintro (h | ⟨x', y', hn', h, h'⟩)
          · exact .inl h
          · injection h with h1 h2
            subst h1 h2
            exact .inr h'
        · rintro (h | h)
          · exact .inl h
          · exact .inr ⟨x, y, hn, rfl, h⟩

variable {cfg : ServerConfig} {s : Server}

theorem server_suite (hs : NewServer P256.ext cfg = .ok s) :
    s.suite = P256.suite ∧ s.version = cfg.version ∧ s.privateKey = cfg.privateKey ∧ cfg.oprfSuite = oprfP256 ∧ cfg.privateKey.k < P256.q := by
  obtain ⟨slow, S, _, _, _, hS, hk, rfl⟩ := newServer_ok hs
  have hS' : (if cfg.oprfSuite = oprfP256 then some P256.suite else none) = some S := hS
  have hk' : decide (cfg.oprfSuite = oprfP256 ∧ cfg.privateKey.k < P256.q) = true := hk
  rw [decide_eq_true_eq] at hk'
  rw [if_pos hk'.1] at hS'
  injection hS' with hS'
  exact ⟨hS'.symm, rfl, rfl, hk'.1, hk'.2⟩

/-- The scalar of an evaluation. -/
def scalar (k : ℕ) : ZMod P256.q := (k : ZMod P256.q) + (scalarOf Spec.info : ZMod P256.q)

theorem nsmul_cast {m n : ℕ} (h : (m : ZMod P256.q) = n) (P : W.Point) : m • P = n • P := by
  have hz : ∀ P : W.Point, P256.q • P = 0 := fun P => by rw [← card_eq]; exact card_nsmul_eq_zero'
  have hm : ∀ n : ℕ, n • P = (n % P256.q) • P := by
    intro n
    conv_lhs => rw [← Nat.div_add_mod n P256.q]
    rw [add_nsmul, mul_comm, mul_nsmul, hz, zero_add]
  rw [hm m, hm n, (ZMod.natCast_eq_natCast_iff' m n P256.q).mp h]

theorem scalar_eq (hs : NewServer P256.ext cfg = .ok s) :
    Spec.tweak s.suite s.privateKey = 0 ↔ scalar cfg.privateKey.k = 0 := by
  obtain ⟨slow, S, _, _, _, hS, hk, rfl⟩ := newServer_ok hs
  obtain ⟨rfl, -⟩ := server_suite hs
  exact Iff.rfl

/-- What a server with the real group answers. -/
theorem handle_iff (hs : NewServer P256.ext cfg = .ok s) (req : ClientRequest) (kv : Getter) (resp : ServerResponse) :
    s.handleRequest req kv = .ok resp ↔ req.version.toNat % 65536 = cfg.version.toNat ∧ scalar cfg.privateKey.k ≠ 0 ∧
      Spec.IsHexString req.bucketID ∧ ∃ P contents, de req.blindElement = some P ∧ kv req.bucketID = .ok contents ∧
        resp = ⟨req.version, ser ((scalar cfg.privateKey.k)⁻¹.val • P), contents⟩ := by
  obtain ⟨slow, S, _, _, _, hS, hk, rfl⟩ := newServer_ok hs
  obtain ⟨rfl, -⟩ := server_suite hs
  rw [C17_ok_iff]
  dsimp only
  refine and_congr Iff.rfl (and_congr Iff.rfl (and_congr Iff.rfl ?_))
  constructor
  · rintro ⟨g, contents, h1, h2, h3⟩
    have h1' : (de req.blindElement).map P256.ops.dlog.symm = some g := h1
    cases hd : de req.blindElement with
    | none => rw [hd] at h1'; cases h1'
    | some P =>
      rw [hd] at h1'
      injection h1' with h1'
      refine ⟨P, contents, rfl, h2, ?_⟩
      rw [h3, ← h1']
      refine congrArg (fun x => (⟨req.version, P256.ser x, contents⟩ : ServerResponse)) ?_
      exact (P256.ops.dlog_mul _ _).trans (by rw [AddEquiv.apply_symm_apply]; rfl)
  · rintro ⟨P, contents, h1, h2, h3⟩
    refine ⟨P256.ops.dlog.symm P, contents, ?_, h2, ?_⟩
    · show (de req.blindElement).map P256.ops.dlog.symm = _
      rw [h1]; rfl
    · rw [h3]
      refine congrArg (fun x => (⟨req.version, P256.ser x, contents⟩ : ServerResponse)) ?_
      exact ((P256.ops.dlog_mul _ _).trans (by rw [AddEquiv.apply_symm_apply]; rfl)).symm

theorem de_suite (b : Bytes) : P256.suite.de b = (de b).map P256.ops.dlog.symm := rfl

/-- C91: which elements a server accepts: with everything else in order, a request is answered iff the bytes of its
element encode a point, and otherwise the error is the library's about the element. -/
theorem C91_accepts (hs : NewServer P256.ext cfg = .ok s) (hk : scalar cfg.privateKey.k ≠ 0) (req : ClientRequest) (kv : KV)
    (hv : req.version.toNat % 65536 = cfg.version.toNat) (hid : Spec.IsHexString req.bucketID) :
    ((s.handleRequest req kv.get).IsOk ↔ ∃ P, WireForm P req.blindElement) ∧
    ((¬ ∃ P, WireForm P req.blindElement) → s.handleRequest req kv.get = .err .oprfElement) := by
  constructor
  · constructor
    · intro h
      obtain ⟨resp, h⟩ := h
      obtain ⟨-, -, -, P, -, h1, -⟩ := (handle_iff hs req kv.get resp).mp h
      exact ⟨P, (wireForm_iff _ _).mpr h1⟩
    · rintro ⟨P, hP⟩
      exact ⟨_, (handle_iff hs req kv.get _).mpr ⟨hv, hk, hid, P, _, (wireForm_iff _ _).mp hP, rfl, rfl⟩⟩
  · intro hn
    obtain ⟨h1, h2, -⟩ := server_suite hs
    refine (C17_errors s req kv.get).2.2.1 (by rw [h2]; exact hv) (fun e => hk ((scalar_eq hs).mp e)) ?_
    rw [h1, de_suite]
    cases hd : de req.blindElement with
    | none => rfl
    | some P => exact absurd ⟨P, (wireForm_iff _ _).mpr hd⟩ hn

/-- C91: the element of a reply is the compressed form of the point that, multiplied by the sum of the key and the scalar of the evaluation,
gives the point of the request. It is infinity (one byte) iff that was; otherwise it has the 33 bytes that the client's reader
of replies expects. -/
theorem C91_reply (hs : NewServer P256.ext cfg = .ok s) (req : ClientRequest) (kv : Getter) (resp : ServerResponse)
    (h : s.handleRequest req kv = .ok resp) :
    ∃ P Q, WireForm P req.blindElement ∧ Compressed Q resp.evaluatedElement ∧
      (cfg.privateKey.k + scalarOf Spec.info) • Q = P ∧ (∀ Q', (cfg.privateKey.k + scalarOf Spec.info) • Q' = P → Q' = Q) ∧
      (Q = 0 ↔ P = 0) ∧ (P = 0 → resp.evaluatedElement = [0]) ∧ (P ≠ 0 → resp.evaluatedElement.length = 33) := by
  obtain ⟨-, hk, -, P, contents, h1, h2, rfl⟩ := (handle_iff hs req kv resp).mp h
  have hinv : ∀ X : W.Point, (cfg.privateKey.k + scalarOf Spec.info) • ((scalar cfg.privateKey.k)⁻¹.val • X) = X := by
    intro X
    rw [← mul_nsmul, nsmul_cast (n := 1), one_nsmul]
    rw [Nat.cast_mul, ZMod.natCast_zmod_val, Nat.cast_add, Nat.cast_one]
    exact inv_mul_cancel₀ hk
  have hinv' : ∀ X : W.Point, (scalar cfg.privateKey.k)⁻¹.val • ((cfg.privateKey.k + scalarOf Spec.info) • X) = X := by
    intro X
    rw [← mul_nsmul, mul_comm, mul_nsmul, hinv]
  have h0 : (scalar cfg.privateKey.k)⁻¹.val • P = 0 ↔ P = 0 := by
    constructor
    · intro e
      rw [← hinv P, e, nsmul_zero]
    · intro e
      rw [e, nsmul_zero]
  refine ⟨P, (scalar cfg.privateKey.k)⁻¹.val • P, (wireForm_iff _ _).mpr h1, (compressed_iff _ _).mpr rfl, hinv P, ?_, h0, ?_, ?_⟩
  · intro Q' e
    rw [← e, hinv']
  · intro e
    dsimp only
    rw [h0.mpr e]
    rfl
  · intro e
    exact ser_length _ (fun e' => e (h0.mp e'))

/-- C91: the two encodings of a point are answered alike. -/
theorem C91_same_reply (hs : NewServer P256.ext cfg = .ok s) (req : ClientRequest) (kv : Getter) (P : W.Point) (b b' : Bytes)
    (h : WireForm P b) (h' : WireForm P b') :
    s.handleRequest { req with blindElement := b } kv = s.handleRequest { req with blindElement := b' } kv := by
  obtain ⟨h1, -⟩ := server_suite hs
  have e : s.suite.de b = s.suite.de b' := by
    rw [h1, de_suite, de_suite, (wireForm_iff _ _).mp h, (wireForm_iff _ _).mp h']
  unfold Server.handleRequest Suite.evaluate
  dsimp only
  rw [e]

/-- The scalar of the evaluation, and the one private key that cancels it. -/
@[irreducible] def theScalar : ℕ := 0xd6473fc51adc9bb34d969285286c45d57bdb4d97ee1c5756ff6b32de2470cb0d
@[irreducible] def badKey : ℕ := 0x29b8c039e523644db2696d7ad793ba2a410bad15b8fb472df44e97e4d7f25a44

theorem scalarOf_info : scalarOf Spec.info = theScalar := by decide +kernel
theorem bad_sum : badKey + theScalar = P256.q := by decide +kernel
theorem badKey_pos : 0 < badKey := by decide +kernel
theorem theScalar_pos : 0 < theScalar := by decide +kernel

theorem scalar_zero {k : ℕ} (hk : k < P256.q) : scalar k = 0 ↔ k = badKey := by
  unfold scalar
  rw [scalarOf_info, ← Nat.cast_add, ZMod.natCast_eq_zero_iff]
  have h1 := bad_sum
  have h2 := badKey_pos
  constructor
  · rintro ⟨c, hc⟩
    have hc1 : c = 1 := by
      have hlt : P256.q * c < P256.q * 2 := by omega
      have hpos : 0 < P256.q * c := by
        have := theScalar_pos
        omega
      have hc2 : c < 2 := Nat.lt_of_mul_lt_mul_left hlt
      have hc0 : 0 < c := Nat.pos_of_mul_pos_left hpos
      omega
    rw [hc1] at hc
    omega
  · rintro rfl
    exact ⟨1, by omega⟩

/-- C91: the default configuration takes exactly the keys below the order, and all but one of these work: the one
is not zero, and under it no request is ever answered and no entry ever made. -/
theorem C91_keys :
    (∀ k, (NewServer P256.ext (DefaultServerConfig ⟨k⟩)).IsOk ↔ k < P256.q) ∧
    ∃ bad, 0 < bad ∧ bad < P256.q ∧ ∀ k s, NewServer P256.ext (DefaultServerConfig ⟨k⟩) = .ok s →
      (k = bad → (∀ req kv resp, s.handleRequest req kv ≠ .ok resp) ∧
        ∀ u p flag m e, s.encryptBucketEntry P256.ext u p flag m ≠ .ok e) ∧
      (k ≠ bad → ∀ u p flag m, u.length ≤ 65536 → p.length ≤ 65536 → m.length ≤ 8160 → flag.toNat ≤ 3 →
        (s.encryptBucketEntry P256.ext u p flag m).IsOk) := by
  refine ⟨fun k => ?_, badKey, badKey_pos, ?_, fun k s hs => ⟨?_, ?_⟩⟩
  · rw [C12_newServer_iff]
    have hd : P256.ext.keyOK oprfP256 ⟨k⟩ = decide (oprfP256 = oprfP256 ∧ k < P256.q) := rfl
    constructor
    · rintro ⟨-, -, -, -, h⟩
      have h' : P256.ext.keyOK oprfP256 ⟨k⟩ = true := h
      rw [hd, decide_eq_true_eq] at h'
      exact h'.2
    · intro h
      refine ⟨rfl, Nat.le_refl 1, rfl, ?_, ?_⟩
      · show (P256.ext.suites oprfP256).isSome = true
        rw [suites_eq]; rfl
      · show P256.ext.keyOK oprfP256 ⟨k⟩ = true
        rw [hd, decide_eq_true_eq]
        exact ⟨rfl, h⟩
  · have := bad_sum
    have := theScalar_pos
    omega
  · intro hb
    obtain ⟨-, -, -, -, hk⟩ := server_suite hs
    have h0 : scalar k = 0 := (scalar_zero hk).mpr hb
    constructor
    · intro req kv resp h
      exact ((handle_iff hs req kv resp).mp h).2.1 h0
    · intro u p flag m e h
      exact ((C05_encryptBucketEntry_iff _ s hs u p flag m e).mp h).2.2.2.2.1 ((scalar_eq hs).mpr h0)
  · intro hb u p flag m hu hp hm hf
    obtain ⟨-, -, -, -, hk⟩ := server_suite hs
    exact ⟨_, (C05_encryptBucketEntry_iff _ s hs u p flag m _).mpr ⟨hf, hu, hp, hm,
      fun e => hb ((scalar_zero hk).mp ((scalar_eq hs).mp e)), rfl⟩⟩

/-! ## The client -/

theorem client_suite {cfg : Config} {c : Client} (hc : NewClient P256.ext cfg = .ok c) : c.suite = P256.suite := by
  obtain ⟨slow, S, _, _, _, hS, rfl⟩ := newClient_ok hc
  have hS' : (if cfg.oprfSuite = oprfP256 then some P256.suite else none) = some S := hS
  split at hS'
  · injection hS' with hS'
    exact hS'.symm
  · cases hS'

/-- C91: what a client sends is the compressed form of the blind times the point that its credential hashes to. If
neither is zero, these are 33 bytes, and the blind can be undone. -/
theorem C91_request {cfg : Config} {c : Client} (hc : NewClient P256.ext cfg = .ok c) (u p : Bytes) (r : ZMod c.suite.q)
    (req : ClientRequest) (ctx : ClientRequestContext) (h : c.request P256.ext u p r = .ok (req, ctx)) :
    ∃ H P : W.Point, H = P256.hashToElement (Spec.oprfInput P256.ext cfg.slowHasherID u p) ∧ P = r.val • H ∧
      Compressed P req.blindElement ∧ (r ≠ 0 → H ≠ 0 → P ≠ 0 ∧ req.blindElement.length = 33) ∧
      (r ≠ 0 → ∃ n : ℕ, n • P = H) := by
  have hb : u.length ≤ 65536 ∧ p.length ≤ 65536 ∧ 0 ≤ cfg.bucketIDBitSize ∧ cfg.bucketIDBitSize ≤ 32 := by
    have hnp : ¬ (c.request P256.ext u p r).IsPanic := by
      rw [h]
      rintro ⟨x, hx⟩
      cases hx
    rw [(C02_request_panics_iff cfg c hc u p r).1] at hnp
    omega
  obtain ⟨id, -, -, h'⟩ := request_ok cfg c hc u p hb.1 hb.2.1 hb.2.2.1 hb.2.2.2 r
  rw [h'] at h
  injection h with h
  injection h with h1 h2
  subst h1
  obtain ⟨slow, S, _, _, _, hS, rfl⟩ := newClient_ok hc
  have e := client_suite hc
  dsimp only at e r ⊢
  subst e
  have hr : ∀ X : W.Point, r ≠ 0 → (r⁻¹).val • (r.val • X) = X := by
    intro X h0
    rw [← mul_nsmul, nsmul_cast (n := 1), one_nsmul]
    have e1 : ((r.val * (r⁻¹).val : ℕ) : ZMod P256.suite.q) = ((1 : ℕ) : ZMod P256.suite.q) := by
      rw [Nat.cast_mul, ZMod.natCast_zmod_val, ZMod.natCast_zmod_val, Nat.cast_one]
      exact mul_inv_cancel₀ h0
    exact e1
  have hser : P256.suite.ser (r * P256.suite.hashToElement (Spec.oprfInput P256.ext cfg.slowHasherID u p)) =
      ser (r.val • P256.hashToElement (Spec.oprfInput P256.ext cfg.slowHasherID u p)) :=
    P256.ops.ofGroup_blind _ r
  rw [hser]
  refine ⟨_, _, rfl, rfl, (compressed_iff _ _).mpr rfl, fun h0 hH => ?_, fun h0 => ⟨_, hr _ h0⟩⟩
  have hP : r.val • P256.hashToElement (Spec.oprfInput P256.ext cfg.slowHasherID u p) ≠ 0 := by
    intro e
    have := hr (P256.hashToElement (Spec.oprfInput P256.ext cfg.slowHasherID u p)) h0
    rw [e, nsmul_zero] at this
    exact hH this.symm
  exact ⟨hP, ser_length _ hP⟩

/-- C91: the client refuses a reply whose element is not the encoding of a point, and makes no difference between the two encodings
of a point. -/
theorem C91_finalize {cfg : Config} {c : Client} (hc : NewClient P256.ext cfg = .ok c) (ctx : ClientRequestContext)
    (hctx : ctx.client = c) (resp : ServerResponse) (hv : resp.version.toNat % 65536 = c.version.toNat) :
    ((¬ ∃ P, WireForm P resp.evaluatedElement) → ctx.finalize P256.ext resp = .ret NotInBreach none (some .oprfElement)) ∧
    ∀ P b, WireForm P resp.evaluatedElement → WireForm P b →
      ctx.finalize P256.ext { resp with evaluatedElement := b } = ctx.finalize P256.ext resp := by
  have hv' : ¬ (UInt16.ofNat resp.version.toNat ≠ ctx.client.version) := by
    rw [not_not, hctx, ← UInt16.toNat_inj, UInt16.toNat_ofNat']
    exact hv
  have hsuite : ctx.client.suite = P256.suite := by rw [hctx]; exact client_suite hc
  have hde : ∀ b, ctx.client.suite.de b = none ↔ de b = none := by
    intro b
    rw [hsuite]
    exact Option.map_eq_none_iff
  constructor
  · intro hn
    have hd : de resp.evaluatedElement = none := by
      cases hd : de resp.evaluatedElement with
      | none => rfl
      | some P => exact absurd ⟨P, (wireForm_iff _ _).mpr hd⟩ hn
    unfold ClientRequestContext.finalize Suite.clientFinalize
    rw [if_neg hv', (hde _).mpr hd]
  · intro P b h1 h2
    have e : ctx.client.suite.de b = ctx.client.suite.de resp.evaluatedElement := by
      rw [hsuite, de_suite, de_suite, (wireForm_iff _ _).mp h1, (wireForm_iff _ _).mp h2]
    unfold ClientRequestContext.finalize Suite.clientFinalize
    dsimp only
    rw [e]

/-- C91: the whole way with the real libraries, nothing assumed of them: under the default configuration and any key that
works, an entry made for a credential and stored alone is found, with its status and metadata. -/
theorem C91_found (k : ℕ) (hk : k < P256.q) (hb : k ≠ badKey) (u p m : Bytes) (flag : MetadataType)
    (hu : u.length ≤ 65536) (hp : p.length ≤ 65536) (hm : m.length ≤ 8160) (hf : flag.toNat ≤ 3) :
    ∃ c s entry id, NewClient P256.ext DefaultConfig = .ok c ∧ NewServer P256.ext (DefaultServerConfig ⟨k⟩) = .ok s ∧
      s.encryptBucketEntry P256.ext u p flag m = .ok entry ∧ s.bucketID P256.ext u = .ok id ∧
      ∀ r : ZMod c.suite.q, r ≠ 0 →
        exchange P256.ext c s (newKVStore.append (BucketIDToHex id) entry) u p r =
          .ret (MetadataType.toBreachStatus flag) (some m) none := by
  obtain ⟨s, hs⟩ := (C91_keys.1 k).mpr hk
  obtain ⟨c, hc⟩ := (C12_default ⟨k⟩ (E := P256.ext) (by
    show decide ((3 : UInt16) = oprfP256 ∧ k < P256.q) = true
    rw [decide_eq_true_eq]
    exact ⟨rfl, hk⟩)).1
  have hc' : NewClient P256.ext (DefaultServerConfig ⟨k⟩).toConfig = .ok c := hc
  have ht : Spec.tweak s.suite s.privateKey ≠ 0 := fun e => hb ((scalar_zero hk).mp ((scalar_eq hs).mp e))
  have he := (C05_encryptBucketEntry_iff _ s hs u p flag m _).mpr ⟨hf, hu, hp, hm, ht, rfl⟩
  obtain ⟨id, h1, -⟩ := (C03_server_bucketID _ s hs u).1 hu (by show (0 : Int) ≤ 20; decide) (by show (20 : Int) ≤ 32; decide)
  refine ⟨c, s, _, id, hc, hs, he, h1, fun r hr => ?_⟩
  rw [C28_ideal_lookup hc' hs (.entry u p flag m _ id .start he h1) u p r hu hp (by show (0 : Int) ≤ 20; decide)
    (by show (20 : Int) ≤ 32; decide) ht hr]
  · rw [List.nil_append]
    unfold Spec.lookup
    rw [List.find?_cons_of_pos (by simp)]
  · intro x hx hcol
    rw [List.nil_append, List.mem_singleton] at hx
    subst hx
    exact hcol.1 ⟨rfl, rfl⟩

/-! ## Concrete cases -/

/-- The compressed form of the base point. -/
def baseBytes : Bytes := 3 :: [0x6b, 0x17, 0xd1, 0xf2, 0xe1, 0x2c, 0x42, 0x47, 0xf8, 0xbc, 0xe6, 0xe5, 0x63, 0xa4, 0x40, 0xf2, 0x77, 0x03, 0x7d, 0x81, 0x2d, 0xeb, 0x33, 0xa0, 0xf4, 0xa1, 0x39, 0x45, 0xd8, 0x98, 0xc2, 0x96]

theorem base_form : Compressed G baseBytes := by
  refine .odd ?_ ⟨rfl, ?_⟩
  · rw [ZMod.val_natCast]
    decide +kernel
  · rw [ZMod.val_natCast]
    decide +kernel

theorem bad_ne_7 : 7 ≠ badKey := by decide +kernel
theorem seven_lt : 7 < P256.q := by decide +kernel

/-- C91_group: the base point. -/
example : addOrderOf G = P256.q := (C91_group.2.2 G (by unfold G; exact fun e => by cases e)).1

/-- C91_accepts, C91_reply, C91_same_reply: a server with key 7 answers a request with the base point. -/
example : ∃ s, NewServer P256.ext (DefaultServerConfig ⟨7⟩) = .ok s ∧ scalar 7 ≠ 0 ∧
    (s.handleRequest ⟨1, ascii "00000000", baseBytes⟩ newKVStore.get).IsOk := by
  obtain ⟨s, hs⟩ := (C91_keys.1 7).mpr seven_lt
  have h7 : scalar 7 ≠ 0 := fun e => bad_ne_7 ((scalar_zero seven_lt).mp e)
  exact ⟨s, hs, h7, (C91_accepts hs h7 ⟨1, ascii "00000000", baseBytes⟩ newKVStore rfl ⟨by decide, by decide⟩).1.mpr
    ⟨G, .compressed base_form⟩⟩

/-- C91_accepts: bytes that encode no point: none, a wrong first byte, a coordinate that is not reduced. -/
example : (¬ ∃ P, WireForm P []) ∧ (¬ ∃ P, WireForm P [5]) ∧ ¬ ∃ P, WireForm P (2 :: List.replicate 32 0xff) := by
  refine ⟨?_, ?_, ?_⟩
  · rintro ⟨P, h⟩
    cases h
    rename_i h
    cases h
  · rintro ⟨P, h⟩
    cases h
    rename_i h
    cases h
  · rintro ⟨P, h⟩
    cases h with
    | compressed h =>
      cases h with
      | @even x y _ _ _ h =>
        have h1 := h.2
        have h2 := ZMod.val_lt x
        exact absurd h1 (by
          intro e
          have h3 : P256.p ≤ Nat.ofDigits 256 ((List.replicate 32 (0xff : UInt8)).reverse.map UInt8.toNat) := by decide +kernel
          omega)

/-- C91_request, C91_finalize: the default client makes requests. -/
example (u p : Bytes) (hu : u.length ≤ 65536) (hp : p.length ≤ 65536) :
    ∃ c, NewClient P256.ext DefaultConfig = .ok c ∧ ∀ r, (c.request P256.ext u p r).IsOk := by
  obtain ⟨c, s, e, id, hc, -⟩ := C91_found 7 seven_lt bad_ne_7 u p [] 0 hu hp (by decide) (by decide)
  refine ⟨c, hc, fun r => ?_⟩
  obtain ⟨id, -, -, h⟩ := request_ok DefaultConfig c hc u p hu hp (by decide) (by decide) r
  exact ⟨_, h⟩

/-- C91_found: a breached password. -/
example : ∃ c s entry id, NewClient P256.ext DefaultConfig = .ok c ∧ NewServer P256.ext (DefaultServerConfig ⟨7⟩) = .ok s ∧
    s.encryptBucketEntry P256.ext (ascii "user") (ascii "abc") 1 (ascii "A") = .ok entry ∧
    s.bucketID P256.ext (ascii "user") = .ok id ∧ ∀ r : ZMod c.suite.q, r ≠ 0 →
      exchange P256.ext c s (newKVStore.append (BucketIDToHex id) entry) (ascii "user") (ascii "abc") r =
        .ret InBreach (some (ascii "A")) none :=
  C91_found 7 seven_lt bad_ne_7 _ _ _ 1 (by decide) (by decide) (by decide) (by decide)

end Migp.Props
