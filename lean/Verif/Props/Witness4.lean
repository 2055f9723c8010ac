import Verif.Props.Witness3
import Verif.Props.Sharper
import Verif.Props.Names
import Verif.Props.Finalize32
/-!
# Concrete cases for the hypotheses of the theorems, part 4: the library, C01-C23
-/
namespace Migp.Props
open Spec Example Mutator

/-- C01_parse -/
example : ∃ e, serializeUsernamePassword (ascii "user") (ascii "abc") = .ok e ∧
    parseCredential (e ++ [9, 9]) = some (ascii "user", ascii "abc", [9, 9]) :=
  C01_parse _ _ _ (by decide) (by decide)

/-- C02_encryptBucketEntry_panics_iff: a username of 65537 bytes crashes, one of 65536 does not. -/
example (x : UInt8) : (server.encryptBucketEntry ext (List.replicate 65537 x) [] 1 []).IsPanic ∧
    ¬ (server.encryptBucketEntry ext (List.replicate 65536 x) [] 1 []).IsPanic := by
  constructor
  · rw [C02_encryptBucketEntry_panics_iff cfg server newServer_eq, List.length_replicate]
    exact ⟨by decide, .inl (by decide)⟩
  · rw [C02_encryptBucketEntry_panics_iff cfg server newServer_eq, List.length_replicate]
    exact fun h => h.2.elim (by decide) (by decide)

/-- C03_client_bucketID_panics_iff, C03_server_bucketID, C14_same_bucket: the example client and server. -/
example : ¬ (client.bucketID ext (ascii "user")).IsPanic ∧
    (∃ id, server.bucketID ext (ascii "user") = .ok id ∧ id.toNat < 2 ^ 20) ∧
    client.bucketID ext (ascii "user") = server.bucketID ext (ascii "user") := by
  refine ⟨?_, ?_, C14_same_bucket cfg client server newClient_eq newServer_eq _⟩
  · rw [(C03_client_bucketID_panics_iff cfg.toConfig client newClient_eq _).1]
    exact fun h => h.elim (by decide) fun h => h.elim (by decide) (by decide)
  · obtain ⟨id, h1, -, h3⟩ := (C03_server_bucketID cfg server newServer_eq (ascii "user")).1 (by decide) (by decide) (by decide)
    exact ⟨id, h1, h3⟩

/-- C03_panics_iff, C03_prefix, C03_top_bits: a hash of five bytes. -/
example : (bucketHashToID [0xab, 0xcd, 0xef, 1, 2] 33).IsPanic ∧
    (∃ a b, bucketHashToID [0xab, 0xcd, 0xef, 1, 2] 8 = .ok a ∧ bucketHashToID [0xab, 0xcd, 0xef, 1, 2] 20 = .ok b ∧
      a.toNat = b.toNat / 4096) ∧
    ∃ id, bucketHashToID [0xab, 0xcd, 0xef, 1, 2] 12 = .ok id ∧ id.toNat = 0xabc := by
  refine ⟨((C03_panics_iff [0xab, 0xcd, 0xef, 1, 2] (by decide) 33).1).mpr (.inr (by decide)),
    C03_prefix [0xab, 0xcd, 0xef, 1, 2] (by decide) 8 20 (by decide) (by decide) (by decide), ?_⟩
  obtain ⟨id, h1, h2, -⟩ := C03_top_bits [0xab, 0xcd, 0xef, 1, 2] (by decide) 12 (by decide) (by decide)
  exact ⟨id, h1, h2.trans (by decide)⟩

/-- C03_client_prefix: the example client, and one with 16 bits. -/
example : ∃ cs, NewClient ext { cfg.toConfig with bucketIDBitSize := 16 } = .ok cs ∧
    ∃ a b, cs.bucketID ext (ascii "user") = .ok a ∧ client.bucketID ext (ascii "user") = .ok b ∧ a.toNat = b.toNat / 16 := by
  refine ⟨{ client with bucketIDBitSize := 16 }, rfl, ?_⟩
  exact (C03_client_prefix { cfg.toConfig with bucketIDBitSize := 16 } cfg.toConfig _ client rfl newClient_eq (by decide)
    (by decide) (by decide) (ascii "user") (by decide)).1

/-- The server answers requests with this element and identifier, whatever the store. -/
theorem answered (kv : KV) : ∃ resp, server.handleRequest ⟨1, BucketIDToHex 0xabc, server.suite.ser 1⟩ kv.get = .ok resp ∧
    kv.get (BucketIDToHex 0xabc) = .ok resp.bucketContents :=
  C04_accepted server example_tweak kv 0xabc ⟨1, BucketIDToHex 0xabc, server.suite.ser 1⟩ rfl rfl
    (by rw [server.suite.de_ser]; rfl)

/-- C04_injective: two identifiers with different texts, and C04_accepted: the server answers a request for one of them. -/
example : BucketIDToHex 0xabc = ascii "00000abc" ∧ BucketIDToHex 0xabc ≠ BucketIDToHex 0xabd ∧
    ∃ resp, server.handleRequest ⟨1, BucketIDToHex 0xabc, server.suite.ser 1⟩ newKVStore.get = .ok resp := by
  obtain ⟨resp, h, -⟩ := answered newKVStore
  exact ⟨by decide, fun h => absurd (C04_injective _ _ h) (by decide), resp, h⟩

/-- C05_error_text, C05_status_names -/
example : server.encryptBucketEntry ext (ascii "user") (ascii "abc") 65 [] = .err (.invalidFlag (ascii "A")) ∧
    BreachStatus.toString 1 ≠ BreachStatus.toString 2 :=
  ⟨C05_error_text server _ _ 65 [] (by decide), fun h => absurd (C05_status_names 1 2 (by decide) (by decide) h) (by decide)⟩

/-- C06_roundtrip, C08_accepts_iff: an entry followed by others. -/
example : ∃ c, BucketEncryptor.hkdfSHA256.encrypt ext [1, 2] 3 (ascii "A") = .ok c ∧
    BucketEncryptor.hkdfSHA256.decryptHeader ext [1, 2] (c ++ [9]) = .ok (true, 3, 1) ∧
    BucketEncryptor.hkdfSHA256.decryptBody ext [1, 2] (((c ++ [9]).drop 25).take 1) = .ok (ascii "A") ∧
    ∃ accept flag len, BucketEncryptor.hkdfSHA256.decryptHeader ext [2] (c ++ [9]) = .ok (accept, flag, len) ∧ len = 1 := by
  obtain ⟨c, h1, h2, h3⟩ := C06_roundtrip ext .hkdfSHA256 [1, 2] 3 (ascii "A") [9] (by decide)
  obtain ⟨a, f, l, h4, h5, -⟩ := C08_accepts_iff ext .hkdfSHA256 [1, 2] [2] 3 (ascii "A") c [9] h1
  exact ⟨c, h1, h2, h3, a, f, l, h4, h5⟩

/-- C16_public_fields: two requests of the example client. -/
example : ∃ req ctx req' ctx', client.request ext (ascii "user") (ascii "abc") 1 = .ok (req, ctx) ∧
    client.request ext (ascii "user") (ascii "other") 3 = .ok (req', ctx') ∧ req.bucketID = req'.bucketID := by
  obtain ⟨req, ctx, -, h1, -⟩ := example_request newKVStore (ascii "user") (ascii "abc") (by decide) (by decide) 1
  obtain ⟨req', ctx', -, h1', -⟩ := example_request newKVStore (ascii "user") (ascii "other") (by decide) (by decide) 3
  exact ⟨req, ctx, req', ctx', h1, h1',
    (C16_public_fields cfg.toConfig client newClient_eq _ _ _ 1 3 req req' ctx ctx' h1 h1').2⟩

/-- C17_no_panic: every store of the model answers without a panic. -/
example (kv : KV) (req : ClientRequest) : ¬ (server.handleRequest req kv.get).IsPanic :=
  C17_no_panic server req kv.get (by rintro ⟨p, h⟩; exact nomatch h)

/-- C18_exact_rejection_false, C18_request_version: version 65537 counts as version 1. -/
example (kv : KV) : (∃ req : ClientRequest, req.version = 131073 ∧ (server.handleRequest req (fun _ => .ok [])).IsOk) ∧
    ∃ resp, server.handleRequest ⟨65537, BucketIDToHex 0xabc, server.suite.ser 1⟩ kv.get = .ok resp := by
  refine ⟨(C18_exact_rejection_false server example_tweak).1 _ (by decide), ?_⟩
  obtain ⟨resp, h, -⟩ := answered kv
  have := C18_request_version server ⟨1, BucketIDToHex 0xabc, server.suite.ser 1⟩ kv.get 65537 (by decide)
  rw [h] at this
  exact ⟨_, this⟩

/-- C19_only_canonical: after an insert, nothing is stored under texts in upper case. -/
example : ∃ kv, insertRecord ext server rec0 newKVStore = (kv, .ok ()) ∧ kv.get (ascii "000ABCDE") = .ok [] := by
  obtain ⟨kv, h, hh⟩ := example_history
  exact ⟨kv, h, C19_only_canonical newServer_eq hh _ (fun h => absurd (h.2 65 (by decide)) (by decide))⟩

/-- C20_default_suite_survives, C20_marshal_unmarshal -/
example (kv : KV) : ∃ resp bytes, server.handleRequest ⟨1, BucketIDToHex 0xabc, server.suite.ser 1⟩ kv.get = .ok resp ∧
    resp.marshalBinary = .ok bytes ∧ ServerResponse.unmarshalBinary bytes = .ok resp := by
  obtain ⟨resp, h, -⟩ := answered kv
  have := C20_default_suite_survives server rfl _ _ _ h (by rw [server.suite.de_ser]; decide)
  obtain ⟨bytes, h1, h2⟩ := Res.bind_eq_ok.mp this
  exact ⟨resp, bytes, h, C20_marshal_unmarshal _ _ h2, h2⟩

/-- The example server with the suite whose elements have 49 bytes. -/
def server49 : Server := { server with suite := toySuite2, oprfSuite := 4 }

theorem tweak49 : Spec.tweak server49.suite server49.privateKey ≠ 0 := by
  show Spec.tweak toySuite2 ⟨7⟩ ≠ 0
  decide +kernel

/-- C21_other_suites_broken, C21_long_element -/
example (kv : KV) : NewServer ext { cfg with oprfSuite := 4 } = .ok server49 ∧
    ∃ resp, server49.handleRequest ⟨1, BucketIDToHex 0xabc, server49.suite.ser 1⟩ kv.get = .ok resp ∧
      (resp.marshalBinary >>= ServerResponse.unmarshalBinary).IsOk ∧
      (resp.marshalBinary >>= ServerResponse.unmarshalBinary) ≠ .ok resp := by
  refine ⟨rfl, ?_⟩
  obtain ⟨resp, h, -⟩ := C04_accepted server49 tweak49 kv 0xabc ⟨1, BucketIDToHex 0xabc, server49.suite.ser 1⟩ rfl rfl
    (by rw [server49.suite.de_ser]; rfl)
  exact ⟨resp, h, C21_other_suites_broken server49 (by decide) _ _ resp h (by rw [server49.suite.de_ser]; decide)⟩

/-- C21_long_element: the last 16 bytes of the element become part of the bucket. -/
example (x : UInt8) (b : Bytes) : ∃ r, ((⟨1, List.replicate 49 x, b⟩ : ServerResponse).marshalBinary >>=
    ServerResponse.unmarshalBinary) = .ok r ∧ r.evaluatedElement = List.replicate 33 x ∧
    r.bucketContents = List.replicate 16 x ++ b := by
  have := C21_long_element ⟨1, List.replicate 49 x, b⟩ (by rw [List.length_replicate]; decide)
  exact ⟨_, this, by rw [List.take_replicate]; rfl, by rw [List.drop_replicate]⟩

/-- C22_finalize_64, C22_terminates: a hostile bucket. -/
example (r : ZMod client.suite.q) : ∃ req ctx, client.request ext (ascii "user") (ascii "pw") r = .ok (req, ctx) ∧
    ctx.finalizeRun 64 ext ⟨1, [1], List.replicate 60 255⟩ 3 = some (ctx.finalize ext ⟨1, [1], List.replicate 60 255⟩) ∧
    ∃ status metadata err, finalizeLoop ext .hkdfSHA256 [1] (List.replicate 60 255) 0 = .ret status metadata err := by
  obtain ⟨req, ctx, -, h1, -⟩ := example_request newKVStore (ascii "user") (ascii "pw") (by decide) (by decide) r
  refine ⟨req, ctx, h1, C22_finalize_64 ctx ⟨1, [1], List.replicate 60 255⟩ ?_ 3 ?_, ?_⟩
  · show (List.replicate 60 255).length < _
    rw [List.length_replicate]; decide
  · show (List.replicate 60 255).length / 25 + 1 ≤ _
    rw [List.length_replicate]
  · obtain ⟨s, m, e, -, h⟩ := C22_terminates (E := ext) .hkdfSHA256 [1] (List.replicate 60 255)
      (by rw [List.length_replicate]; decide)
    exact ⟨s, m, e, h⟩

/-- C23_finalize_32, C23_negative, C23_step: one entry whose length field is 2^32 - 25 sends a 32-bit client back to the start,
one with 2^31 out of bounds. -/
example (r : ZMod client.suite.q) : ∃ req ctx, client.request ext (ascii "user") (ascii "pw") r = .ok (req, ctx) ∧
    (∃ b : Bytes, b.length = 25 ∧ ∀ n, ctx.finalizeRun 32 ext ⟨1, client.suite.ser 1, b⟩ n = none) ∧
    finalizeStep 32 ext .hkdfSHA256 [1] (List.replicate 25 0) (-5) = .done (.panic .bounds) ∧
    finalizeStep 32 ext .hkdfSHA256 [1] (List.replicate 20 0 ++ [0, 255, 255, 255, 231]) 0 = .next 0 := by
  obtain ⟨req, ctx, -, h1, -⟩ := example_request newKVStore (ascii "user") (ascii "pw") (by decide) (by decide) r
  have hc : ctx.client = client := by
    obtain ⟨ser, -, hh⟩ := Res.bind_eq_ok.mp h1
    obtain ⟨inp, -, hh⟩ := Res.bind_eq_ok.mp hh
    obtain ⟨id', -, hh⟩ := Res.bind_eq_ok.mp hh
    injection hh with hh
    injection hh with _ hh
    rw [← hh]
  refine ⟨req, ctx, h1, (C23_finalize_32 ctx 1 (client.suite.ser 1) ?_ ?_).1, ?_, ?_⟩
  · rw [hc]; rfl
  · rw [hc, client.suite.de_ser]; rfl
  · exact C23_negative ext .hkdfSHA256 [1] _ (-5) (by decide) (by decide) (by rw [List.length_replicate])
  · have h := C23_step ext .hkdfSHA256 [1] [] (List.replicate 20 0) 0 4294967271 [] List.length_replicate (by decide)
    have ht : List.replicate 20 0 ≠ keyTag ext.sha256 [1] := by decide +kernel
    exact h.trans ((if_neg (by decide)).trans ((if_neg (by decide)).trans ((if_neg ht).trans (by decide))))

end Migp.Props
