import Verif.Props.Encoding
import Verif.Props.Encryptor
import Verif.Props.Config
import Verif.Props.Protocol
import Verif.Props.Finalize
import Verif.Props.FinalizeApi
import Verif.Props.Shadow
import Verif.Example.Server
/-!
# Concrete cases for the hypotheses of the theorems, part 1

For each theorem that has hypotheses and no example beside it, a concrete case that meets all of them, with what
the theorem then says. Part 2 is `Verif.Props.Witness2`.
-/
namespace Migp.Props
open Spec Example Mutator

/-! ## C01, C02 -/

/-- C01_prefix_free, C01_injective: two accepted credentials that would be confused without the length fields. -/
example : (serializeUsernamePassword (ascii "ab") (ascii "c")).IsOk ∧
    (serializeUsernamePassword (ascii "a") (ascii "bc")).IsOk ∧
    serializeUsernamePassword (ascii "ab") (ascii "c") ≠ serializeUsernamePassword (ascii "a") (ascii "bc") :=
  ⟨⟨_, C01_format _ _ (by decide) (by decide)⟩, ⟨_, C01_format _ _ (by decide) (by decide)⟩,
   fun h => absurd (C01_injective _ _ _ _ (by decide) (by decide) (by decide) (by decide) h).1 (by decide)⟩

/-- C02_collisions_exact: 65536 bytes are accepted. -/
example : serializeUsernamePassword (0 :: 0 :: List.replicate 65534 7) [] =
    serializeUsernamePassword [] (List.replicate 65534 7 ++ [0, 0]) :=
  ((C02_collisions_exact _ _ _ _ (by rw [List.length_cons, List.length_cons, List.length_replicate])
    (Nat.zero_le _) (Nat.zero_le _) (by rw [List.length_append, List.length_replicate]; decide)).mpr
    ⟨_, List.length_replicate, .inl ⟨rfl, rfl, rfl, rfl⟩⟩).1

/-- C03_client_bucketID -/
example : ∃ id, client.bucketID ext (ascii "user") = .ok id ∧ id.toNat < 2 ^ 20 := by
  obtain ⟨id, h1, -, h3⟩ := C03_client_bucketID (E := ext) Example.cfg.toConfig client newClient_eq (ascii "user")
    (by decide) (by decide) (by decide)
  exact ⟨id, h1, h3⟩

/-! ## C08: a collision of tags

With the real SHA-256 nobody knows one; with a hash that is constant every two secrets collide. -/

/-- `Example.ext` with a constant hash. -/
def weakExt : Ext := { ext with
  sha256 := fun _ => List.replicate 32 1
  sha256_len := fun _ => by rw [List.length_replicate] }

/-- C08_commitment: its hypotheses are met under a broken hash. -/
example : ∃ c, BucketEncryptor.hkdfSHA256.encrypt weakExt [1] 2 [5, 6] = .ok c ∧
    BucketEncryptor.hkdfSHA256.decryptHeader weakExt [2] (c ++ [9]) = .ok (true, 2, 2) ∧
    Spec.hkdf weakExt.sha256 [1] (ascii "MIGP derive pad header") [] 20 =
      Spec.hkdf weakExt.sha256 [2] (ascii "MIGP derive pad header") [] 20 := by
  have h1 := C07_format weakExt .hkdfSHA256 [1] 2 [5, 6] (by decide)
  have h2 : BucketEncryptor.hkdfSHA256.decryptHeader weakExt [2] (Spec.entry weakExt.sha256 [1] 2 [5, 6] ++ [9]) =
      .ok (true, 2, 2) := by decide +kernel
  exact ⟨_, h1, h2, C08_commitment weakExt .hkdfSHA256 [1] [2] 2 2 [5, 6] _ [9] 2 h1 h2⟩

/-- C10_integrity_false: an entry of a secret, changed without it. -/
example : ∃ forge : Bytes → Bytes, ∃ (c body' : Bytes), BucketEncryptor.hkdfSHA256.encrypt ext [1, 2] MetadataBreachedPassword [5, 6] = .ok c ∧
    BucketEncryptor.hkdfSHA256.decryptHeader ext [1, 2] (forge c) = .ok (true, MetadataDummy, 2) ∧ body' ≠ [5, 6] := by
  obtain ⟨forge, hf⟩ := C10_integrity_false
  have h1 := C07_format ext .hkdfSHA256 [1, 2] MetadataBreachedPassword [5, 6] (by decide)
  obtain ⟨body', h2, -, h3⟩ := hf ext .hkdfSHA256 _ _ _ h1 (by decide)
  exact ⟨forge, _, body', h1, h2, h3⟩

/-- C10_malleable, C11_two_time_pad: entries of the same secret. -/
example : ∃ c1 c2, BucketEncryptor.hkdfSHA256.encrypt ext [1, 2] 1 [5, 6] = .ok c1 ∧
    BucketEncryptor.hkdfSHA256.encrypt ext [1, 2] 3 [7, 6, 9] = .ok c2 ∧
    Spec.xor (c1.drop 25) (c2.drop 25) = [2, 0] ∧
    BucketEncryptor.hkdfSHA256.decryptBody ext [1, 2] ((tamper c1 1 [3, 3]).drop 25) = .ok [6, 5] := by
  have h1 := C07_format ext .hkdfSHA256 [1, 2] 1 [5, 6] (by decide)
  have h2 := C07_format ext .hkdfSHA256 [1, 2] 3 [7, 6, 9] (by decide)
  exact ⟨_, _, h1, h2, (C11_two_time_pad ext .hkdfSHA256 _ _ _ _ _ _ _ h1 h2).2.2,
    (C10_malleable ext .hkdfSHA256 _ 1 1 [5, 6] [3, 3] _ h1 rfl).2⟩

/-- C09_local: entries that differ after the header. -/
example : BucketEncryptor.hkdfSHA256.decryptHeader ext [1] (List.replicate 25 3 ++ [1]) =
    BucketEncryptor.hkdfSHA256.decryptHeader ext [1] (List.replicate 25 3 ++ [2, 2]) :=
  C09_local ext .hkdfSHA256 _ _ _ (by decide) (by decide) (by decide)

/-! ## C11, C13, C14: a server -/

/-- C11_same_credential -/
example : ∃ c1 c2, server.encryptBucketEntry ext (ascii "u") (ascii "p") 1 [1, 2, 3] = .ok c1 ∧
    server.encryptBucketEntry ext (ascii "u") (ascii "p") 2 [1, 2, 4] = .ok c2 ∧
    c1.take 20 = c2.take 20 ∧ Spec.xor (c1.drop 25) (c2.drop 25) = [0, 0, 7] := by
  have h1 := encryptBucketEntry_ok newServer_eq (ascii "u") (ascii "p") 1 [1, 2, 3] (by decide) (by decide)
    (by decide) example_tweak (by decide)
  have h2 := encryptBucketEntry_ok newServer_eq (ascii "u") (ascii "p") 2 [1, 2, 4] (by decide) (by decide)
    (by decide) example_tweak (by decide)
  have h := C11_same_credential Example.cfg server newServer_eq _ _ _ _ _ _ _ _ h1 h2
  exact ⟨_, _, h1, h2, h.1, h.2.2⟩

/-- C11_tells_apart: two passwords (the tags are computed with the real SHA-256). -/
example : ∃ c1 c2, server.encryptBucketEntry ext (ascii "user") (ascii "abc") 1 [1, 2, 3] = .ok c1 ∧
    server.encryptBucketEntry ext (ascii "user") [] 2 [1, 2, 4] = .ok c2 ∧ c1.take 20 ≠ c2.take 20 := by
  have h1 := encryptBucketEntry_ok newServer_eq (ascii "user") (ascii "abc") 1 [1, 2, 3] (by decide) (by decide)
    (by decide) example_tweak (by decide)
  have h2 := encryptBucketEntry_ok newServer_eq (ascii "user") [] 2 [1, 2, 4] (by decide) (by decide)
    (by decide) example_tweak (by decide)
  refine ⟨_, _, h1, h2, fun h => ?_⟩
  have := (C11_tells_apart Example.cfg server newServer_eq _ _ _ _ _ _ _ _ _ _ h1 h2).mp h
  revert this
  decide +kernel

/-- C13_config, C13_rebuild: a server with unusual settings. -/
example : ∃ s, NewServer ext ⟨⟨7, 33, 1, 0, 1, 4⟩, ⟨9⟩⟩ = .ok s ∧ s.config = ⟨⟨7, 33, 1, 0, 1, 4⟩, ⟨9⟩⟩ :=
  ⟨_, rfl, rfl⟩

/-- C12_bad_bit_size_panics -/
example : ∃ c, NewClient ext { DefaultConfig with bucketIDBitSize := -1 } = .ok c ∧
    ∀ r, (c.request ext [1] [2] r).IsPanic := by
  have h : NewClient ext { DefaultConfig with bucketIDBitSize := -1 } = .ok { client with bucketIDBitSize := -1 } := rfl
  exact ⟨_, h, fun r => C12_bad_bit_size_panics _ _ h (.inl (by decide)) [1] [2] r⟩

/-- A request of the example client, whatever the blind, and the server's answer. -/
theorem example_request (kv : KV) (u p : Bytes) (hu : u.length ≤ 65536) (hp : p.length ≤ 65536)
    (r : ZMod client.suite.q) :
    ∃ req ctx resp, client.request ext u p r = .ok (req, ctx) ∧ server.handleRequest req kv.get = .ok resp := by
  have h := C02_request_panics_iff (E := ext) Example.cfg.toConfig client newClient_eq u p r
  rcases e : client.request ext u p r with ⟨req, ctx⟩ | e' | q
  · refine ⟨req, ctx, ?_⟩
    obtain ⟨id, hid, hb⟩ := C14_request_bucket Example.cfg client server newClient_eq newServer_eq u p r req ctx e
    obtain ⟨ser, -, hh⟩ := Res.bind_eq_ok.mp e
    obtain ⟨inp, -, hh⟩ := Res.bind_eq_ok.mp hh
    obtain ⟨id', -, hh⟩ := Res.bind_eq_ok.mp hh
    injection hh with hh
    injection hh with hh _
    subst hh
    refine ⟨_, rfl, (C17_ok_iff _ _ _ _).mpr ⟨by dsimp only; decide, example_tweak, ?_,
      (r * client.suite.hashToElement inp : ZMod client.suite.q), _, toySuite.de_ser _, rfl, rfl⟩⟩
    · obtain ⟨hl, hlo, -⟩ := C04_canonical id'
      exact ⟨by rw [hl], fun c hc => .inl (hlo c hc)⟩
  · rw [e] at h; exact absurd ⟨_, rfl⟩ h.2
  · rw [e] at h
    have := h.1.mp ⟨_, rfl⟩
    rcases this with h | h | h | h
    · omega
    · omega
    · exact absurd h (by decide)
    · exact absurd h (by decide)

/-! ## C15, C16: requests -/

/-- C15_blinded_eq_direct: for every credential of reasonable size and every blind but 0. -/
example (r : ZMod client.suite.q) (hr : r ≠ 0) : ∃ req ctx resp key,
    client.request ext (ascii "user") (ascii "pw") r = .ok (req, ctx) ∧
    server.handleRequest req newKVStore.get = .ok resp ∧
    server.deriveBucketEntryKey ext (ascii "user") (ascii "pw") = .ok key ∧
    ctx.client.suite.clientFinalize ctx.input ctx.blind resp.evaluatedElement OprfInfo = .ok key := by
  obtain ⟨req, ctx, resp, h1, h2⟩ := example_request newKVStore (ascii "user") (ascii "pw") (by decide) (by decide) r
  obtain ⟨key, h3, h4⟩ := C15_blinded_eq_direct Example.cfg client server newClient_eq newServer_eq _ _ r hr req ctx
    h1 _ resp h2
  exact ⟨req, ctx, resp, key, h1, h2, h3, h4⟩

/-- The example client with a single bucket. -/
def client0 : Client := { client with bucketIDBitSize := 0 }

theorem newClient0_eq : NewClient ext { Example.cfg.toConfig with bucketIDBitSize := 0 } = .ok client0 := rfl

/-- Every element the toy suite hashes to is different from the identity. -/
theorem toy_hash_ne_zero (b : Bytes) : toySuite.hashToElement b ≠ 0 := by
  show ((byteSum b % 100 + 1 : ℕ) : ZMod 101) ≠ 0
  rw [Ne, ZMod.natCast_eq_zero_iff]
  omega

/-- C16_hiding, C16_uniform: two users in the same bucket. -/
example : ∃ f : {r : ZMod client0.suite.q // r ≠ 0} ≃ {r : ZMod client0.suite.q // r ≠ 0}, ∀ r, ∃ req ctx ctx',
    client0.request ext (ascii "alice") (ascii "secret") r.1 = .ok (req, ctx) ∧
    client0.request ext (ascii "bob") (ascii "hunter2") (f r).1 = .ok (req, ctx') := by
  refine C16_hiding (E := ext) _ client0 newClient0_eq _ _ _ _ (by decide) (by decide) (by decide) (by decide)
    (by decide) (by decide) ?_ (toy_hash_ne_zero _) (toy_hash_ne_zero _)
  obtain ⟨a, ha, -, ha'⟩ := C03_client_bucketID (E := ext) _ client0 newClient0_eq (ascii "alice")
    (by decide) (by decide) (by decide)
  obtain ⟨b, hb, -, hb'⟩ := C03_client_bucketID (E := ext) _ client0 newClient0_eq (ascii "bob")
    (by decide) (by decide) (by decide)
  rw [ha, hb]
  have e : (2 : ℕ) ^ ({ Example.cfg.toConfig with bucketIDBitSize := 0 } : Config).bucketIDBitSize.toNat = 1 := rfl
  rw [e] at ha' hb'
  rw [UInt32.toNat_inj.mp (show a.toNat = b.toNat by omega)]

/-- C18_reply_rejected, C18_reply_version: contexts of the example client. -/
example (r : ZMod client.suite.q) : ∃ req ctx, client.request ext (ascii "user") (ascii "pw") r = .ok (req, ctx) ∧
    ctx.finalize ext ⟨2, [], []⟩ = .ret NotInBreach none (some .wrongVersionReply) := by
  obtain ⟨req, ctx, -, h1, -⟩ := example_request newKVStore (ascii "user") (ascii "pw") (by decide) (by decide) r
  refine ⟨req, ctx, h1, C18_reply_rejected _ _ ?_⟩
  have hc : ctx.client = client := by
    obtain ⟨ser, -, hh⟩ := Res.bind_eq_ok.mp h1
    obtain ⟨inp, -, hh⟩ := Res.bind_eq_ok.mp hh
    obtain ⟨id', -, hh⟩ := Res.bind_eq_ok.mp hh
    injection hh with hh
    injection hh with _ hh
    rw [← hh]
  rw [hc]
  decide

/-! ## C24, C25: buckets -/

/-- An entry of the secret `[s]` with the given masked body. -/
def entryOf (s : UInt8) (body : Bytes) : RawEntry := ⟨keyTag ext.sha256 [s], 9, body⟩

/-- C24_first_match, C25_truncation: two entries, the second of which matches. -/
example : (entryOf 1 [4, 5]).WF ∧ (entryOf 2 [6, 7, 8]).WF ∧
    firstMatch ext.sha256 [2] [entryOf 1 [4, 5], entryOf 2 [6, 7, 8]] = some (entryOf 2 [6, 7, 8]) := by
  refine ⟨⟨keyTag_length _ _, by decide⟩, ⟨keyTag_length _ _, by decide⟩, ?_⟩
  decide +kernel

/-- C24_finalize_honest, C25_finalize_iff: a context of the example client, a reply whose bucket has an entry of
somebody else, the client's and four stray bytes. -/
example (input : Bytes) (r : ZMod client.suite.q) : ∃ key,
    client.suite.clientFinalize input r [] OprfInfo = .err .oprfElement ∧
    client.suite.clientFinalize input r (client.suite.ser 5) OprfInfo = .ok key ∧
    (keyTag ext.sha256 [1] ≠ keyTag ext.sha256 key →
      (⟨client, input, r⟩ : ClientRequestContext).finalize ext
        ⟨65537, client.suite.ser 5, [Spec.entry ext.sha256 [1] 1 [5, 5]].flatten ++
          Spec.entry ext.sha256 key 2 [7, 7] ++ [1, 2, 3, 4]⟩ = .ret SimilarInBreach (some [7, 7]) none) := by
  have hd : client.suite.de (client.suite.ser 5) = some 5 := client.suite.de_ser _
  have hd' : client.suite.de [] = none := rfl
  have h2 : client.suite.clientFinalize input r (client.suite.ser 5) OprfInfo =
      .ok (client.suite.finalizeHash input OprfInfo (client.suite.ser (r⁻¹ * 5))) := by
    unfold Suite.clientFinalize; rw [hd]
  refine ⟨_, by unfold Suite.clientFinalize; rw [hd'], h2, fun hne => ?_⟩
  refine C24_finalize_honest _ _ _ (by dsimp only; decide) h2 [([1], 1, [5, 5])] 2 [7, 7]
    [Spec.entry ext.sha256 [1] 1 [5, 5]] _ [1, 2, 3, 4] ?_ (C07_format ext _ _ 2 [7, 7] (by decide)) ?_ rfl
  · rw [List.map_cons, List.map_nil]
    dsimp only
    rw [C07_format ext _ [1] 1 [5, 5] (by decide)]
    rfl
  · intro x hx
    rw [List.mem_singleton] at hx
    subst hx
    exact hne

end Migp.Props
