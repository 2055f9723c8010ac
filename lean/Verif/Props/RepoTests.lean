import Verif.Props.QuickStart
/-!
# The repository's own tests, run on the model

These are tests of the model, not proofs of properties: each states that the model of the code gives what a test of the repository
demands of the code, evaluated by the kernel on the test's own data. (The rest of common_test.go is in Props/Encoding.) The real
SHA-256, HMAC, HKDF, Murmur3, rules, JSON, scanner and flag parsing are run; the group and scrypt are those of `Example.ext`. No
claim of the manifest rests on them.
-/
set_option Elab.async false
namespace Migp.RepoTests
open Migp.Mutator Migp.Example

/-- rdasmutator_test.go:24-42: at least 100 variants for `num = 1000`, among them the expected ones. -/
def testMutate (inPw : Bytes) (outPws : List Bytes) : Bool :=
  match mutate dasRules inPw 1000 with
  | .ok variants => decide (100 ≤ variants.length) && outPws.all fun outPw => variants.contains outPw
  | _ => false

/-- rdasmutator_test.go:17 -/
example : testMutate (ascii "hello")
    [ascii "Hello", ascii "13hello", ascii "hello1", ascii "777hello", ascii "helloN"] = true := by decide +kernel

/-- rdasmutator_test.go:18 -/
example : testMutate (ascii "asdf1234asdf")
    [ascii "zxcv1234zxcv", ascii "asdf1234asdf1", ascii "asdf1234a", ascii "asdf1234as", ascii "Asdf1234asdf",
      ascii "asdf1234asdfN"] = true := by decide +kernel

/-- rdasmutator_test.go:19 -/
example : testMutate [] [ascii "1", ascii "13", ascii "777", ascii "N"] = true := by decide +kernel

/-- encryptor_test.go:48-98, for one case: both sides derive a secret from `secret`; what the server encrypts, the client decrypts. -/
def testEncryptDecrypt (secret : Bytes) (flag : MetadataType) (metadata : Bytes) : Bool :=
  match server.suite.evaluate server.privateKey (server.suite.blind secret 5) OprfInfo with
  | .ok evaluated =>
    match server.suite.clientFinalize secret 5 evaluated OprfInfo,
      server.suite.fullEvaluate server.privateKey secret OprfInfo with
    | .ok clientSecret, .ok serverSecret =>
      match server.bucketEncryptor.encrypt ext serverSecret flag metadata with
      | .ok ciphertext =>
        match server.bucketEncryptor.decryptHeader ext clientSecret (ciphertext.take HeaderSize) with
        | .ok (valid, flag', bodyLength) =>
          valid && decide (flag' = flag) && decide (bodyLength = metadata.length) &&
            decide (server.bucketEncryptor.decryptBody ext clientSecret ((ciphertext.drop HeaderSize).take bodyLength) =
              .ok metadata)
        | _ => false
      | _ => false
    | _, _ => false
  | _ => false

/-- encryptor_test.go:17-27 -/
example : testEncryptDecrypt (ascii "test") MetadataDummy (ascii "helloworld") = true := by decide +kernel
example : testEncryptDecrypt (ascii "124jbZC") MetadataSimilarPassword [] = true := by decide +kernel
example : testEncryptDecrypt (ascii "1ujkbjkfdb09fjdzvzjkdfA!#") 100 (ascii "12") = true := by decide +kernel
example : testEncryptDecrypt (ascii "abc345fds!#") MetadataBreachedUsername (ascii "abc") = true := by decide +kernel

/-- client_test.go:53-63: the store filled with the entries; `none` if a call fails. -/
def testStore : List (Bytes × Bytes × MetadataType × Bytes) → KV → Option KV
  | [], kv => some kv
  | (username, password, flag, metadata) :: rest, kv =>
    match server.bucketID ext username, server.encryptBucketEntry ext username password flag metadata with
    | .ok id, .ok newEntry => testStore rest (kv.append (BucketIDToHex id) newEntry)
    | _, _ => none

/-- client_test.go:27-41 -/
def testCases : List (Bytes × Bytes × MetadataType × Bytes) :=
  [(ascii "test@mail.com", ascii "password1234", MetadataBreachedPassword, ascii "my favorite breach"),
   (ascii "TESTt@mail.com", ascii "password1234", MetadataBreachedPassword, ascii "my favorite breach"),
   (ascii "test@mail.com", ascii "password3214", MetadataBreachedPassword, ascii "my favorite breach, flipped"),
   ([], [], MetadataSimilarPassword, ascii "my favorite breach"),
   (ascii "!!#%test", ascii "Password1231", MetadataSimilarPassword, []),
   (ascii "test2", ascii "!!&*F(DSbjklzd", MetadataBreachedPassword, ascii "$#!!%BVAF"),
   (ascii "username", ascii "password5678", MetadataBreachedUsername, ascii "my favorite breach")]

/-- client_test.go:27-41: the expected statuses. -/
def outputValues : List BreachStatus :=
  [InBreach, InBreach, InBreach, SimilarInBreach, SimilarInBreach, InBreach, UsernameInBreach]

/-- client_test.go:24-119: the store is filled with some of the entries, and each of these is looked up. -/
def testExchange (cases : List (Bytes × Bytes × MetadataType × Bytes)) : Option (List Out) :=
  (testStore cases newKVStore).map fun kv => cases.map fun t => exchange ext client server kv t.1 t.2.1 (5 : ZMod 101)

/-- client_test.go:24-119: the inserted entries are found, each with its status and metadata (in two parts, to bound the memory that
the kernel needs). -/
example : testExchange (testCases.take 3) =
    some (((testCases.zip outputValues).take 3).map fun x => Out.ret x.2 (some x.1.2.2.2) none) := by decide +kernel
example : testExchange ((testCases.drop 3).take 2) =
    some ((((testCases.zip outputValues).drop 3).take 2).map fun x => Out.ret x.2 (some x.1.2.2.2) none) := by decide +kernel
example : testExchange (testCases.drop 5) =
    some (((testCases.zip outputValues).drop 5).map fun x => Out.ret x.2 (some x.1.2.2.2) none) := by decide +kernel

/-- client_test.go:100-119: another password is not found. -/
example : (testStore (testCases.drop 6) newKVStore).map (fun kv =>
    exchange ext client server kv (ascii "username") (ascii "password") (6 : ZMod 101)) = some (.ret NotInBreach none none) := by
  decide +kernel

/-- server_test.go:17-60: a configuration survives the journey through JSON: the second server encrypts alike. -/
def testSerialization (username password metadata : Bytes) : Bool :=
  match (ServerConfig.unmarshalJSON ext (fun _ _ => 0) ((server.config).marshalJSON ext)) with
  | .ok cfg =>
    match NewServer ext cfg with
    | .ok server2 =>
      match server.encryptBucketEntry ext username password MetadataSimilarPassword metadata,
        server2.encryptBucketEntry ext username password MetadataSimilarPassword metadata with
      | .ok ciphertextA, .ok ciphertextB => decide (server.version = server2.version) && decide (ciphertextA = ciphertextB)
      | _, _ => false
    | _ => false
  | _ => false

example : testSerialization (ascii "username1") (ascii "password1") (ascii "test metadata") = true := by decide +kernel

/-- server_test.go:64-96, with an element of any bytes: what is marshalled has the expected length and comes back. -/
example (element : Bytes) (h : element.length = 33) :
    ∃ data, ServerResponse.marshalBinary ⟨123, element, [1, 2, 3, 4, 5, 6, 7, 8, 9]⟩ = .ok data ∧
      data.length = 4 + element.length + 9 ∧
      ServerResponse.unmarshalBinary data = .ok ⟨123, element, [1, 2, 3, 4, 5, 6, 7, 8, 9]⟩ := by
  obtain ⟨data, h1, h2⟩ := Res.bind_eq_ok.mp
    ((Props.C20_unmarshal_marshal_iff ⟨123, element, [1, 2, 3, 4, 5, 6, 7, 8, 9]⟩).mpr h)
  refine ⟨data, h1, ?_, h2⟩
  rw [← Res.ok.inj h1]
  simp [be32]
  omega

/-- cmd/server/server_test.go:15-63: over HTTP, the record is not found before it is inserted, and found after. -/
def testServer (username password metadata : Bytes) : Option (Out × Out) :=
  let query kv := Query ext DefaultConfig (fun b => deliver server kv (fun _ _ => 0) (ascii "/evaluate") b) username password
    (fun _ => 5)
  match insert ext server username password metadata 9 true newKVStore with
  | (kv, .ok _) => some (query newKVStore, query kv)
  | _ => none

example : testServer (ascii "username1") (ascii "password1") (ascii "test metadata") =
    some (.ret NotInBreach none none, .ret InBreach (some (ascii "test metadata")) none) := by decide +kernel

end Migp.RepoTests
