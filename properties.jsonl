{"id": "C01", "title": "Credential encoding is injective below 64 KiB", "statement": "Two different (username, password) pairs whose components are all at most 65535 bytes long are never presented to the slow hash / OPRF as the same input; the encoding can be parsed back uniquely and no encoding is a proper prefix of another.", "quantifier": "all pairs of (username, password) byte strings with components of at most 65535 bytes", "why_tests_cant": "The domain is all byte strings up to 64 KiB; the unit test tries two pairs.", "anchors": ["pkg/migp/common.go:serializeUsernamePassword"]}
{"id": "C02", "title": "Exact behaviour of the credential length limit", "statement": "Client.Request (with a bucket size in 0..32) and Server.EncryptBucketEntry (with a valid flag) panic exactly when the username or the password is longer than 65536 bytes. At exactly 65536 bytes the length field wraps to 0, so injectivity fails there: there are distinct accepted credentials with identical encodings, and the complete set of such collisions is the family (00 00 w, empty) / (empty, w 00 00) with |w| = 65534.", "quantifier": "all pairs of byte-string credentials, of any length", "why_tests_cant": "Needs every length around a 16-bit boundary and every pair of 64 KiB inputs; an off-by-one at 65536 is invisible to small tests.", "anchors": ["pkg/migp/common.go:serializeUsernamePassword", "pkg/migp/client.go:Client.Request", "pkg/migp/server.go:Server.EncryptBucketEntry"]}
{"id": "C03", "title": "Bucket ID is exactly the top bits of the bucket hash", "statement": "BucketID returns the integer formed by the first bucketIDBitSize bits of the username hash: it is below 2^bits, and a smaller bit size gives the prefix of a larger one. It panics iff the configured bit size is negative or greater than 32 (or the username is longer than 65536 bytes).", "quantifier": "all usernames, all hash values, all configured bit sizes (any Go int)", "why_tests_cant": "All hash values times all bit sizes, including 0, 32, negative and >32 shifts; tests use four points.", "anchors": ["pkg/migp/common.go:bucketHashToID", "pkg/migp/client.go:Client.BucketID", "pkg/migp/server.go:Server.BucketID"]}
{"id": "C04", "title": "Bucket ID hex form is canonical", "statement": "BucketIDToHex is injective, always gives 8 lower-case hex digits, decodes back to the big-endian bytes of the ID, and is therefore always accepted by HandleRequest's hex check.", "quantifier": "all 2^32 bucket IDs", "why_tests_cant": "2^32 values and all pairs of them.", "anchors": ["pkg/migp/common.go:BucketIDToHex", "pkg/migp/server.go:Server.HandleRequest"]}
{"id": "C05", "title": "Metadata flag to breach status", "statement": "A metadata flag maps to a status other than NotInBreach iff it is one of the three breach flags, the mapping is injective on those, and a flag is Valid iff it is one of the four declared constants; only valid flags can be stored through EncryptBucketEntry, which otherwise returns an error and nothing else. The names of all flags and statuses are the documented ones, and the error names the character whose number the flag is.", "quantifier": "all 256 metadata flag values, all credentials and metadata", "why_tests_cant": "Unit tests exercise three of the 256 flag values.", "anchors": ["pkg/migp/common.go:MetadataType.ToBreachStatus", "pkg/migp/common.go:MetadataType.Valid", "pkg/migp/server.go:Server.EncryptBucketEntry"]}
{"id": "C06", "title": "Encrypt / decrypt round trip", "statement": "For every secret, every flag byte and every body of at most 8160 bytes, Encrypt succeeds and decrypting the result with the same secret passes the key check and returns exactly that flag, body length and body, whatever bytes follow the entry.", "quantifier": "all secrets, all 256 flags, all bodies up to 8160 bytes, all trailing bytes", "why_tests_cant": "Unbounded secrets and bodies; the unit test has four cases.", "anchors": ["pkg/migp/encryptor.go:hkdfSHA256BucketEncryptor.Encrypt", "pkg/migp/encryptor.go:hkdfSHA256BucketEncryptor.DecryptHeader", "pkg/migp/encryptor.go:hkdfSHA256BucketEncryptor.DecryptBody"]}
{"id": "C07", "title": "Encrypt output size and body size limit", "statement": "Encrypt never panics; it fails iff the body is longer than 8160 bytes (the HKDF-SHA256 output limit) and otherwise returns exactly 25 + len(body) bytes whose bytes 21..24 are the body length in big-endian plaintext.", "quantifier": "all secrets, flags and bodies of any length", "why_tests_cant": "The limit is implicit in a dependency and only shows at large sizes.", "anchors": ["pkg/migp/encryptor.go:derivePad", "pkg/migp/encryptor.go:hkdfSHA256BucketEncryptor.Encrypt", "pkg/migp/common.go:HeaderSize"]}
{"id": "C08", "title": "Key check accepts exactly the matching 20-byte tag", "statement": "DecryptHeader under a secret s2 accepts an entry encrypted under s1 iff the first 20 bytes of the two HKDF header pads are equal; so an entry is opened by a different secret only through an explicit 160-bit HKDF collision.", "quantifier": "all pairs of secrets, all flags, bodies and trailing bytes", "why_tests_cant": "A test cannot enumerate pairs of secrets; the claim is an exact equivalence.", "anchors": ["pkg/migp/encryptor.go:hkdfSHA256BucketEncryptor.DecryptHeader"]}
{"id": "C09", "title": "DecryptHeader is total and local", "statement": "DecryptHeader never panics on any input, returns an error iff fewer than 25 bytes are given, and its result depends only on the secret and the first 25 bytes.", "quantifier": "all secrets and all byte strings (attacker-controlled bucket contents)", "why_tests_cant": "All byte strings of all lengths.", "anchors": ["pkg/migp/encryptor.go:hkdfSHA256BucketEncryptor.DecryptHeader"]}
{"id": "C10", "title": "Entries are malleable: the encryptor is not an AEAD", "statement": "Although documented as a key-committing AEAD, flag and body are not authenticated: for every entry, XORing any difference into the flag byte or the body bytes of the ciphertext yields an entry that still passes the key check and decrypts to the flag and body with that difference applied. Ciphertext integrity is therefore false of the code.", "quantifier": "all secrets, flags, bodies and XOR differences", "why_tests_cant": "The statement is about every forgery; tests only decrypt honest ciphertexts.", "anchors": ["pkg/migp/encryptor.go:hkdfSHA256BucketEncryptor.Encrypt", "pkg/migp/encryptor.go:NewHKDFSHA256BucketEncryptor"]}
{"id": "C11", "title": "Deterministic pads: same credential, two metadata values", "statement": "Two entries for the same credential under the same server key reveal, to anybody holding the two ciphertexts and no key, whether the credentials are the same (identical first 20 bytes) and the XOR of the two flags and of the two bodies on their common length.", "quantifier": "all secrets, flags and pairs of bodies", "why_tests_cant": "Quantifies over all pairs of plaintexts and secrets.", "anchors": ["pkg/migp/encryptor.go:derivePad", "pkg/migp/encryptor.go:hkdfSHA256BucketEncryptor.Encrypt"]}
{"id": "C12", "title": "Constructors accept exactly the supported configurations", "statement": "NewClient (NewServer) succeeds iff the bucket hasher ID is 1, the slow hasher ID is 0 or 1, the bucket encryptor ID is 1 and the OPRF library supports the suite (and key); the default configuration (version 1, 20 bits, IDs 1, 1, 1 and P-256) is always accepted. The bucket ID bit size is not validated: a client built with a bit size outside 0..32 panics on every Request.", "quantifier": "all 2^16 values of every ID, all bit sizes, all versions", "why_tests_cant": "2^64 combinations of IDs and every int bit size.", "anchors": ["pkg/migp/client.go:NewClient", "pkg/migp/server.go:NewServer", "pkg/migp/hasher.go:NewBucketHasher", "pkg/migp/slowhasher.go:NewSlowHasher", "pkg/migp/encryptor.go:NewBucketEncryptor"]}
{"id": "C13", "title": "Server.Config reproduces the configuration", "statement": "For every configuration NewServer accepts, Config() returns exactly that configuration (public part and key), and a server rebuilt from it behaves identically.", "quantifier": "all accepted server configurations", "why_tests_cant": "All configurations; the unit test compares one ciphertext of one configuration.", "anchors": ["pkg/migp/server.go:Server.Config", "pkg/migp/server.go:NewServer"]}
{"id": "C14", "title": "Client and server agree on buckets", "statement": "A client and a server built from the same public configuration compute the same bucket for every username, and the bucketID string in a client request is exactly the key under which the server's insert stores that username's entries.", "quantifier": "all configurations, all usernames and passwords", "why_tests_cant": "All usernames and configurations.", "anchors": ["pkg/migp/client.go:Client.Request", "pkg/migp/server.go:Server.BucketID", "cmd/server/server.go:server.insert"]}
{"id": "C15", "title": "Blinded evaluation equals direct evaluation", "statement": "For every credential, server key and non-zero blind, the secret the client derives in Finalize from the server's reply equals the key under which EncryptBucketEntry encrypts that credential.", "quantifier": "all credentials, keys, random blinds and suites", "why_tests_cant": "Randomised protocol: every blind and key.", "anchors": ["pkg/migp/client.go:ClientRequestContext.Finalize", "pkg/migp/server.go:Server.deriveBucketEntryKey", "pkg/migp/server.go:Server.HandleRequest"]}
{"id": "C16", "title": "Requests hide the credential within its bucket", "statement": "For any two credentials whose usernames fall in the same bucket (and whose OPRF inputs do not hash to the identity element), there is a bijection on non-zero blinds under which the two clients send identical requests: the request's distribution depends on the credential only through the bucket ID, and version and bucketID never depend on the password or blind.", "quantifier": "all pairs of credentials in one bucket, all blinds", "why_tests_cant": "A statement about distributions over all blinds and all credential pairs.", "anchors": ["pkg/migp/client.go:Client.Request"]}
{"id": "C17", "title": "HandleRequest decision logic", "statement": "HandleRequest succeeds iff the request version's low 16 bits equal the server version, the blinded element deserialises and evaluates, the bucketID is valid hex and the store lookup succeeds; the reply then carries the request's version, the evaluation of the element and exactly the bytes stored under the bucketID. On failure no response data is returned, and the error is the first failing check in that order; it never panics. The store is asked for that one key only, and not at all when an earlier check fails.", "quantifier": "all requests (any version, string and element bytes), stores and keys", "why_tests_cant": "All attacker-chosen requests.", "anchors": ["pkg/migp/server.go:Server.HandleRequest"]}
{"id": "C18", "title": "Version comparison is modulo 65536", "statement": "The 32-bit version of requests and replies is truncated before being compared: a request or reply whose version differs from the configured one by a multiple of 65536 is accepted. Exact rejection of other versions is false of the code.", "quantifier": "all 32-bit versions and all 16-bit configured versions", "why_tests_cant": "2^48 combinations; only truncation shows it.", "anchors": ["pkg/migp/server.go:Server.HandleRequest", "pkg/migp/client.go:ClientRequestContext.Finalize"]}
{"id": "C19", "title": "Bucket identifiers are not canonicalised", "statement": "HandleRequest accepts any even-length hex string and looks it up verbatim, so a request with an upper-case or differently padded ID is accepted but does not reach the bucket stored under the canonical ID; only the canonical lower-case 8-digit form does.", "quantifier": "all hex strings", "why_tests_cant": "All spellings of all IDs.", "anchors": ["pkg/migp/server.go:Server.HandleRequest", "pkg/migp/common.go:BucketIDToHex"]}
{"id": "C20", "title": "Server response wire format", "statement": "UnmarshalBinary never panics, fails iff fewer than 37 bytes are given (with io.EOF for 0 or 4 bytes, io.ErrUnexpectedEOF for 1 to 3, and its own error for 5 to 36), and MarshalBinary after a successful UnmarshalBinary reproduces the input; UnmarshalBinary after MarshalBinary reproduces the response iff its evaluated element is exactly 33 bytes long.", "quantifier": "all byte strings and all responses", "why_tests_cant": "All byte strings; the unit test has one response.", "anchors": ["pkg/migp/server.go:ServerResponse.MarshalBinary", "pkg/migp/server.go:ServerResponse.UnmarshalBinary"]}
{"id": "C21", "title": "Non-default OPRF suites do not survive the wire format", "statement": "UnmarshalBinary always uses the default suite's element size: for a suite with a longer element the tail of the element is moved into the bucket contents, for every response; so the wire round trip holds only for the default suite although NewServer/NewClient accept the others.", "quantifier": "all responses of suites whose element size is not 33", "why_tests_cant": "Needs other suites and every element.", "anchors": ["pkg/migp/server.go:ServerResponse.UnmarshalBinary"]}
{"id": "C22", "title": "Finalize is total on hostile responses", "statement": "On a 64-bit platform Finalize terminates without panicking for every response (any version, element bytes and bucket contents), after at most len(bucket)/25 + 1 iterations.", "quantifier": "all responses from an untrusted server, all client contexts", "why_tests_cant": "All byte strings as bucket contents.", "anchors": ["pkg/migp/client.go:ClientRequestContext.Finalize"]}
{"id": "C23", "title": "32-bit platforms: Finalize can hang or crash", "statement": "Where Go's int is 32 bits, a body length field with the top bit set becomes negative: there are responses for which Finalize never terminates, and responses for which it panics. Totality is false of the code on those platforms. Exactly: an entry whose length field leads to 2^31 or beyond passes the bounds check; on the matching tag Finalize panics, otherwise it goes on at a wrapped offset (so length fields without the top bit are enough for a crash). On buckets without such an entry the result is the same as on 64 bits.", "quantifier": "all step counts (non-termination), all entries at all offsets, all secrets", "why_tests_cant": "Non-termination cannot be observed by a test, and tests run on 64-bit.", "anchors": ["pkg/migp/client.go:ClientRequestContext.Finalize", "pkg/migp/encryptor.go:hkdfSHA256BucketEncryptor.DecryptHeader"]}
{"id": "C24", "title": "Finalize returns the first matching entry", "statement": "On any bucket that is a concatenation of well-formed entries followed by fewer than 25 stray bytes, Finalize returns the flag's status and the decrypted metadata of the first entry whose key tag matches the client's secret, and NotInBreach with nil metadata and no error if there is none.", "quantifier": "all lists of entries, all secrets, all stray tails", "why_tests_cant": "All bucket sizes and contents.", "anchors": ["pkg/migp/client.go:ClientRequestContext.Finalize"]}
{"id": "C25", "title": "Finalize errors are safe", "statement": "Whenever Finalize reports an error, the status is NotInBreach and the metadata nil; it reports a parse error iff an entry's declared body length overruns the bucket before any match, and a found match is never preceded by one. Truncating an honest bucket anywhere either yields an error or the result of the truncated list of entries.", "quantifier": "all responses; all truncation points of all honest buckets", "why_tests_cant": "Every truncation point of every bucket.", "anchors": ["pkg/migp/client.go:ClientRequestContext.Finalize"]}
{"id": "C26", "title": "No false negatives", "statement": "After any history of successful inserts, a query for any credential that was inserted (as breached password, as generated variant, or as username with empty password) gets a reply whose match is non-nil metadata: it is never reported as absent. No cryptographic assumption is needed.", "quantifier": "all insertion histories, all credentials in them, all blinds and keys", "why_tests_cant": "Unbounded histories; bucket collisions between users.", "anchors": ["cmd/server/server.go:server.insert", "pkg/migp/client.go:ClientRequestContext.Finalize", "pkg/migp/server.go:Server.HandleRequest"]}
{"id": "C27", "title": "No false positives without a tag collision", "statement": "After any history of inserts, if a query for a credential that was never inserted is answered with a match, then some inserted credential in the same bucket is different and has the same 160-bit key tag.", "quantifier": "all insertion histories, all queried credentials", "why_tests_cant": "Quantifies over every credential not inserted.", "anchors": ["cmd/server/server.go:server.insert", "pkg/migp/client.go:ClientRequestContext.Finalize"]}
{"id": "C28", "title": "Queries implement the ideal breach lookup", "statement": "Absent tag collisions among the credentials involved, the status and metadata returned by a query after any history of inserts are those of the earliest inserted record for exactly that (username, password), and NotInBreach if there is none.", "quantifier": "all insertion histories, all queries", "why_tests_cant": "Refinement over unbounded histories.", "anchors": ["cmd/server/server.go:server.insert", "pkg/migp/client.go:ClientRequestContext.Finalize"]}
{"id": "C29", "title": "Positive answers are stable", "statement": "Once a query for a credential is answered with a match, every later insert of anything leaves the answer (status and metadata) unchanged; in particular later inserts can neither upgrade the status nor update the metadata.", "quantifier": "all states, all continuations of the history", "why_tests_cant": "All extensions of all histories.", "anchors": ["cmd/server/server.go:server.insert", "cmd/server/kv.go:kvStore.Append", "pkg/migp/client.go:ClientRequestContext.Finalize"]}
{"id": "C30", "title": "Earlier entries shadow later ones", "statement": "'A breached password that was inserted is reported as InBreach' is false of the code: inserting (u, password1) and then (u, password) leaves (u, password) reported as SimilarInBreach; a username query (empty password) is reported as SimilarInBreach when a breached password was at most 3 bytes long; a dummy entry stored first hides a later real entry. What holds is: the status is that of the first record inserted for the credential.", "quantifier": "all histories (false in general, with witnesses); all histories where the credential's first record is the breached one (true)", "why_tests_cant": "Depends on insertion order across records.", "anchors": ["cmd/server/server.go:server.insert", "pkg/migp/client.go:ClientRequestContext.Finalize"]}
{"id": "C31", "title": "Buckets are isolated", "statement": "Inserting any record for a username leaves the stored bytes of every other bucket unchanged, so the answer to any query in another bucket is unchanged.", "quantifier": "all states, all inserts, all queries in other buckets", "why_tests_cant": "All pairs of usernames.", "anchors": ["cmd/server/server.go:server.insert", "cmd/server/kv.go:kvStore.Append"]}
{"id": "C32", "title": "Re-inserting is idempotent for queries", "statement": "Inserting the same record a second time, directly or later, changes no query answer, although the bucket grows by the same number of bytes each time.", "quantifier": "all histories, records and queries", "why_tests_cant": "All histories.", "anchors": ["cmd/server/server.go:server.insert"]}
{"id": "C33", "title": "Mutate returns distinct new strings within the requested number", "statement": "Mutate returns at most num and at most 323 variants, pairwise distinct and all different from the password.", "quantifier": "all passwords, all num", "why_tests_cant": "All passwords; tests try three.", "anchors": ["pkg/mutator/rdasmutator.go:RDasMutator.Mutate"]}
{"id": "C34", "title": "Every variant comes from a rule, in rule order; prefix-stable", "statement": "Every returned variant is the result of applying one of the rules to the password, variants appear in rule order, and for n <= m the result for n is a prefix of the result for m.", "quantifier": "all passwords, all n <= m", "why_tests_cant": "All passwords and pairs of counts.", "anchors": ["pkg/mutator/rdasmutator.go:RDasMutator.Mutate", "pkg/mutator/dasrules.go:dasRulesJSONString"]}
{"id": "C35", "title": "Variants are complete up to 32-bit hash collisions", "statement": "With num at least 323, every rule's result is returned, or has the same murmur3 hash as the password or an earlier variant. Full completeness is false of the code: there is a password for which a distinct variant is dropped because of a murmur3 collision.", "quantifier": "all passwords", "why_tests_cant": "Collisions are rare (2^-32), so tests never see one.", "anchors": ["pkg/mutator/rdasmutator.go:RDasMutator.Mutate"]}
{"id": "C36", "title": "Every password has plenty of variants", "statement": "For every password whatsoever, Mutate with num at least 323 returns at least 98 variants (the unit test checks 100 for three passwords), with no assumption about hash collisions: same-length prefixed variants provably never collide under murmur3.", "quantifier": "all passwords of any length", "why_tests_cant": "Universal over passwords; depends on bijectivity of the hash rounds.", "anchors": ["pkg/mutator/rdasmutator.go:RDasMutator.Mutate", "pkg/mutator/rdasmutator_test.go:TestRdasMutate"]}
{"id": "C37", "title": "Mutate panics exactly on invalid counts", "statement": "With the shipped rules Mutate never panics for any password when 0 <= num (up to the allocator's limit) and always panics for negative num, so a server started with a negative -num-variants crashes on the first record.", "quantifier": "all passwords, all ints num", "why_tests_cant": "All passwords and counts.", "anchors": ["pkg/mutator/rdasmutator.go:RDasMutator.Mutate", "cmd/server/main.go:main"]}
{"id": "C38", "title": "Case rule changes one byte", "statement": "The capitalisation rule changes at most the byte at the given position, leaves the length unchanged, toggles ASCII letters (applying it twice restores the password) and leaves ASCII non-letters alone; on non-ASCII Latin-1 letters it truncates the upper-case rune to a byte, so it is not an involution (0xFF becomes 'x').", "quantifier": "all passwords, all positions, all byte values", "why_tests_cant": "256 byte values at every position of every password.", "anchors": ["pkg/mutator/rdasmutator.go:changeCap", "pkg/mutator/rdasmutator.go:switchCase"]}
{"id": "C39", "title": "Delete and insert rules", "statement": "Deleting with position k removes exactly the first k (or last -k) bytes when the password is long enough and otherwise changes nothing; inserting puts the string at index k, or at index len+1+k for negative k, keeping all password bytes in order, and changes nothing when out of range; neither ever panics.", "quantifier": "all passwords, all int positions, all inserted strings", "why_tests_cant": "All positions including negative and out of range.", "anchors": ["pkg/mutator/rdasmutator.go:deletePortion", "pkg/mutator/rdasmutator.go:insert"]}
{"id": "C40", "title": "Substitute rule", "statement": "The substitute rule splits the password at the leftmost non-overlapping occurrences of String1 and joins the pieces with String2; a password without String1 is unchanged.", "quantifier": "all passwords, all non-empty search strings and replacements", "why_tests_cant": "All passwords.", "anchors": ["pkg/mutator/rdasmutator.go:substitute"]}
{"id": "C41", "title": "Variants have bounded length", "statement": "Every variant of a password of len bytes has at most max(len + 3, len + floor(len/3)) bytes and at least len - max(3, floor(len/4)) bytes.", "quantifier": "all passwords", "why_tests_cant": "All passwords and rules.", "anchors": ["pkg/mutator/rdasmutator.go:RDasMutator.Mutate", "pkg/mutator/dasrules.go"]}
{"id": "C42", "title": "The shipped rule text is well formed", "statement": "The embedded JSON parses (so NewRDasMutator never panics) into 323 rules, all of type c, d, i or s, with non-empty search strings in s rules and non-empty strings in i rules.", "quantifier": "the whole embedded table", "why_tests_cant": "Finite table checked completely; a typo in one rule only shows for some passwords.", "anchors": ["pkg/mutator/dasrules.go:dasRulesJSONString", "pkg/mutator/rdasmutator.go:NewRDasMutator"]}
{"id": "C43", "title": "Insert appends the whole record to one bucket", "statement": "A successful insert appends to the username's bucket, and to no other, exactly the breached entry, then one entry per variant in order, then the username entry if requested: 1 + variants + (0 or 1) entries of 25 + len(metadata) bytes each.", "quantifier": "all stores, records, variant counts", "why_tests_cant": "All inputs.", "anchors": ["cmd/server/server.go:server.insert"]}
{"id": "C44", "title": "Insert is all-or-nothing with respect to errors", "statement": "If insert returns an error the store is unchanged; unless it panics it returns an error iff the metadata is longer than 8160 bytes or the OPRF key cancels the info scalar, independently of the credentials.", "quantifier": "all stores and records", "why_tests_cant": "Errors in the middle of a multi-entry insert would leave partial records; every failure point must be excluded.", "anchors": ["cmd/server/server.go:server.insert"]}
{"id": "C45", "title": "When insert panics", "statement": "Insert panics iff the username or password or one of the generated variants exceeds 65536 bytes, the bit size is out of range, or num-variants is negative (for the variants: if the metadata fits and the key is usable). A password within the accepted limit can therefore crash the server through a variant that is too long; passwords of at most 49152 bytes never do, and every password of exactly 65536 bytes does when all variants are requested. What was appended before such a crash stays: the entry of the password and those of the variants before the first that is too long.", "quantifier": "all records", "why_tests_cant": "Needs 64 KiB passwords with particular substrings.", "anchors": ["cmd/server/server.go:server.insert", "pkg/migp/common.go:serializeUsernamePassword"]}
{"id": "C46", "title": "The store behaves like a map of byte strings", "statement": "For any sequence of Put, Append and Get the value returned by Get for a key is the last Put value for that key followed by all values appended to it since, in order; unknown keys read as empty and no operation fails.", "quantifier": "all operation sequences, keys and values", "why_tests_cant": "All histories.", "anchors": ["cmd/server/kv.go:kvStore"]}
{"id": "C47", "title": "Returned buckets are snapshots under Append", "statement": "A byte slice returned by Get is never changed by any later Append, although Append may write into the same backing array, whatever the growth policy of the allocator; this fails if the same slice with spare capacity is Put under two keys: appending to one key can then overwrite the other's value.", "quantifier": "all operation sequences, all capacity growth choices", "why_tests_cant": "Depends on aliasing and spare capacity, i.e. on allocator behaviour.", "anchors": ["cmd/server/kv.go:kvStore.Append", "cmd/server/kv.go:kvStore.Get", "cmd/server/kv.go:kvStore.Put"]}
{"id": "C48", "title": "The store is linearisable", "statement": "For any number of goroutines running Put/Append/Get in any interleaving under the RWMutex, every complete history is linearisable: equivalent to a sequential one that respects real-time order and each goroutine's program order: no append is lost, torn or duplicated, every Get returns the state at one instant, there is no data race on the map and no deadlock.", "quantifier": "all schedules, any number of goroutines and operations", "why_tests_cant": "Schedules cannot be enumerated by tests.", "anchors": ["cmd/server/kv.go:kvStore"]}
{"id": "C49", "title": "Concurrent inserts never expose torn entries", "statement": "With any number of concurrent inserts and requests, every bucket returned to a client is a concatenation of whole entries, and each goroutine's entries appear in its own program order; a request that runs after an insert returned sees all of that insert's entries.", "quantifier": "all schedules of inserts and requests", "why_tests_cant": "All interleavings.", "anchors": ["cmd/server/server.go:server.insert", "cmd/server/kv.go:kvStore.Append"]}
{"id": "C50", "title": "handleEvaluate status codes", "statement": "A request whose body cannot be read or decoded is answered with status 400, a decodable request that HandleRequest refuses with 500, and otherwise with 200, content type application/octet-stream and exactly the marshalled response.", "quantifier": "all bodies, decoder outcomes and server states", "why_tests_cant": "All request bodies.", "anchors": ["cmd/server/server.go:server.handleEvaluate"]}
{"id": "C51", "title": "A rejected body is still evaluated", "statement": "'A body that fails to decode produces only an error page' is false of the code: handleEvaluate does not return after a decoding error, so a body that sets all fields and then fails (e.g. a duplicate field of the wrong type) is answered with status 400 and a body containing the full evaluation and bucket after the error text.", "quantifier": "all decoder outcomes", "why_tests_cant": "Needs bodies that decode partially and still fail.", "anchors": ["cmd/server/server.go:server.handleEvaluate"]}
{"id": "C52", "title": "The config endpoint does not depend on the private key", "statement": "The reply of /config is the same for any two servers with the same public configuration, whatever their keys and stored data, and a client that decodes it obtains exactly the server's public configuration.", "quantifier": "all servers and keys", "why_tests_cant": "Non-interference over all keys.", "anchors": ["cmd/server/server.go:server.handleConfig", "cmd/client/main.go:main"]}
{"id": "C53", "title": "JSON round trip of requests and configurations", "statement": "Decoding the JSON encoding of any client request, client configuration or server configuration gives back the same value: a request exactly if its bucket ID is UTF-8 (as every hexadecimal one is; other bytes are replaced), a configuration for every bit size that a Go int can hold, a server configuration with the key that the library makes of the serialised key, which is the same for every key it accepts.", "quantifier": "all requests with a hex bucket ID and all configurations", "why_tests_cant": "All values.", "anchors": ["pkg/migp/client.go:ClientRequest", "pkg/migp/common.go:Config", "pkg/migp/server.go:ServerConfig.MarshalJSON", "pkg/migp/server.go:ServerConfig.UnmarshalJSON"]}
{"id": "C54", "title": "Query over HTTP", "statement": "Query against a server's /evaluate endpoint with the server's public default-suite configuration, if its key is usable, returns, for every history of inserts, every credential that does not hash to the identity element and every non-zero blind, the same status and metadata as the in-process protocol, without error; for any transport reply with a status other than 200, Query returns an error and NotInBreach.", "quantifier": "all histories, credentials, blinds, transport replies", "why_tests_cant": "End-to-end over all histories.", "anchors": ["pkg/migp/client.go:Query", "cmd/server/server.go:server.handleEvaluate"]}
{"id": "C55", "title": "Loading a credential file", "statement": "The server inserts, in order, one record per input line containing a colon, split at the first colon (later colons belong to the password), counts the other lines as failures, and successes plus failures equals the number of lines read.", "quantifier": "all input files", "why_tests_cant": "All files.", "anchors": ["cmd/server/main.go:main"]}
{"id": "C56", "title": "Overlong lines silently end the import", "statement": "'Every well-formed line of the file is inserted' is false of the code: reading stops at the first line of more than 65535 bytes (including a trailing CR) without any error, failure count or log, and all later lines are ignored; files without such a line are read completely.", "quantifier": "all input files", "why_tests_cant": "Needs 64 KiB lines; the loss is silent.", "anchors": ["cmd/server/main.go:main", "cmd/client/main.go:main"]}
{"id": "C57", "title": "Client output", "statement": "The client issues one query per line containing a colon, in order, and prints one JSON object per answered query, stopping at the first query that fails; the object never contains the password unless -show-password is given.", "quantifier": "all input files and server behaviours", "why_tests_cant": "All files and replies.", "anchors": ["cmd/client/main.go:main"]}
{"id": "C58", "title": "Slow hash never fails", "statement": "The scrypt slow hasher's fixed parameters pass scrypt's parameter validation, so Hash never panics for any input and returns 32 bytes; the null hasher returns its input; deriving a bucket entry key is deterministic.", "quantifier": "all inputs", "why_tests_cant": "All inputs.", "anchors": ["pkg/migp/slowhasher.go:scryptSlowHasher.Hash", "pkg/migp/slowhasher.go:nullSlowHasher.Hash"]}
{"id": "C59", "title": "Only two paths do anything", "statement": "Exactly the paths /evaluate and /config reach their handlers; a path that is not in clean form is redirected; every other path gets the welcome page with status 200. A Query sent to any path but /evaluate never reports a result: it returns an error (or panics on an unencodable credential), for every server, store and credential, unless the client's version is 30309, the number that the first bytes of /config's JSON happen to spell.", "quantifier": "all request paths, servers, stores, credentials, configurations other than version 30309", "why_tests_cant": "All paths; a 200 reply with a wrong body is the dangerous case.", "anchors": ["cmd/server/server.go:server.handler", "cmd/server/server.go:server.handleIndex", "pkg/migp/client.go:Query"]}
{"id": "C60", "title": "Server and client programs together", "statement": "Start the server program on any file of breached credentials and the client program on any file of credentials to check, the client fetching its configuration from the server: the client prints, for each line of its file with a colon, in order, exactly the JSON object that a lookup in the plain list of loaded credentials, variants and usernames gives, and exits with status 0; in particular a credential of the server's file, a variant of one, and (with -username-variant) its username with an empty password are never reported clean. (Assuming 33-byte elements, a usable key, and that no credential asked for has the 160-bit tag of a different one in its bucket.)", "quantifier": "all pairs of files, numbers of variants, metadata, blinds, ways of reading the files in pieces", "why_tests_cant": "All files, both programs.", "anchors": ["cmd/server/main.go:main", "cmd/client/main.go:main", "pkg/migp/client.go:Query", "cmd/server/server.go:server.handleEvaluate"]}
{"id": "C61", "title": "Dumped configurations can be reloaded", "statement": "The configuration printed by -dump-config, given back with -config, makes the server (with its private key) and the client behave exactly as with the original configuration.", "quantifier": "all configurations that can be loaded or generated, all files and replies", "why_tests_cant": "All configurations.", "anchors": ["cmd/server/main.go:main", "cmd/client/main.go:main", "pkg/migp/server.go:ServerConfig.MarshalJSON"]}
{"id": "C62", "title": "Slices returned by Get are safe to read without the lock", "statement": "Get hands out the stored slice itself, and its caller reads it after the lock is released while other goroutines append in place to the same array, byte by byte. Nevertheless every concurrent history is linearisable, a returned slice shows the same bytes whenever it is looked at, no byte about to be written lies in a slice that has been or is being returned, and the store cannot deadlock or get stuck - for every growth policy of append.", "quantifier": "all numbers of goroutines, interleavings down to single byte writes, growth policies, heaps, moments of reading", "why_tests_cant": "All schedules at byte granularity; the race detector only sees the schedules that happen.", "anchors": ["cmd/server/kv.go:kvStore.Get", "cmd/server/kv.go:kvStore.Append", "pkg/migp/server.go:Server.HandleRequest"]}
{"id": "C63", "title": "What every JSON document is decoded to", "statement": "A JSON request or configuration is decoded as follows, whatever the document: it must be one JSON value (RFC 8259, nested at most 10000 deep); each field is taken from the last member whose name is right up to case and whose value is acceptable (an integer literal in the range of the field, a string, base64 or an array of bytes); unknown members and out-of-range values never change a field, and null changes none but fields of bytes, which it empties (inside an array of bytes null, like a wrong element, leaves its place as it was); an error is reported exactly if some member with a field's name has a value of the wrong kind or range; a document that is not an object changes nothing and is an error unless it is null. A server configuration is accepted exactly if no member is ill-typed and the key so decoded deserialises for the suite so decoded.", "quantifier": "all byte strings as documents, all previous values of the struct, all allocations of slices", "why_tests_cant": "All documents: duplicates, case variants, nesting, numbers.", "anchors": ["pkg/migp/client.go:ClientRequest", "pkg/migp/common.go:Config", "pkg/migp/server.go:ServerConfig.UnmarshalJSON", "cmd/server/server.go:server.handleEvaluate"]}
{"id": "C64", "title": "Where the client program gets its configuration", "statement": "The client program has a configuration exactly if -config names a readable file that decodes without error or, without -config, the server's reply to /config has status 200 and begins with a value that does; otherwise it prints nothing, sends no credential and fails. -dump-config prints the configuration in use and sends nothing. The version warning appears exactly if the version in use is not 1, and changes nothing else.", "quantifier": "all flags, files, replies, networks", "why_tests_cant": "All replies and files.", "anchors": ["cmd/client/main.go:main"]}
{"id": "C65", "title": "Arguments are never written to, results are never shared", "statement": "Mutate, EncryptBucketEntry, BucketID, Request, Finalize, HandleRequest, MarshalBinary, the encryptor and the hashers change no byte of memory that existed before the call, not even in the spare capacity of their arguments and not even if their arguments overlap; what they return is new memory (every variant of Mutate has an array of its own), with two exceptions that are part of the behaviour: the null slow hasher returns its argument, and HandleRequest returns the slice the store holds. So a caller may overwrite username and password as soon as Request has returned, and the response as soon as Finalize has, without changing the result.", "quantifier": "all heaps, slices (overlapping or with spare capacity), configurations, outcomes including errors and panics, later overwritings", "why_tests_cant": "Aliasing bugs show only for particular capacities and later writes.", "anchors": ["pkg/mutator/rdasmutator.go:RDasMutator.Mutate", "pkg/migp/client.go:Client.Request", "pkg/migp/client.go:ClientRequestContext.Finalize", "pkg/migp/server.go:Server.EncryptBucketEntry", "pkg/migp/server.go:Server.HandleRequest", "pkg/migp/common.go:serializeUsernamePassword"]}
{"id": "C66", "title": "The import is immune to the scanner reusing its buffer", "statement": "bufio.Scanner overwrites its buffer between lines, and the server's import loop passes slices of that buffer (username and password of the line) through insert to the store. Nevertheless the store ends up, for every file, as if every line had been an immutable value: same counters, same crash, and every bucket shows the bytes it should, whatever the scanner does with its own memory and however append grows.", "quantifier": "all files, scanner behaviours (overwriting, moving, growing its memory), growth policies, configurations", "why_tests_cant": "Depends on buffer positions and growth.", "anchors": ["cmd/server/main.go:main", "cmd/server/server.go:server.insert", "cmd/server/kv.go:kvStore.Append"]}
{"id": "C67", "title": "Unmarshalling into a receiver", "statement": "UnmarshalBinary writes to no existing memory. With fewer than 4 bytes it fails and leaves its receiver alone; with 4 to 36 bytes it fails and leaves a half-filled receiver (the new version, an element padded with zeros, the old bucket); otherwise the version and element are copied but the bucket is a part of the input itself, so that it changes when the caller reuses the input.", "quantifier": "all inputs, receivers and heaps", "why_tests_cant": "All inputs; aliasing is invisible to value comparisons.", "anchors": ["pkg/migp/server.go:ServerResponse.UnmarshalBinary"]}
{"id": "C68", "title": "Calls in several goroutines", "statement": "Any number of goroutines may call the library at once (one Client, one Server, arguments that share memory, results of earlier calls passed on to later ones): no byte that one is about to write is about to be read or written by another, the memory they share is never changed, every access is to memory that exists, each goroutine that finishes has exactly the outcome it would have had by itself, what different goroutines return does not overlap, and every schedule comes to an end with all of them finished.", "quantifier": "all numbers of goroutines, sequences of calls, overlapping arguments, interleavings of single memory accesses", "why_tests_cant": "All schedules at byte granularity; the race detector only sees the schedules that happen.", "anchors": ["pkg/migp/client.go:Client.Request", "pkg/migp/client.go:ClientRequestContext.Finalize", "pkg/migp/server.go:Server.EncryptBucketEntry", "pkg/migp/server.go:Server.HandleRequest", "pkg/mutator/rdasmutator.go:RDasMutator.Mutate"]}
{"id": "C69", "title": "The JSON the package writes", "statement": "Requests, responses, client and server configurations in JSON are one object with exactly the documented members in a fixed order, numbers in decimal, byte strings in the canonical base64 of RFC 4648 and strings in UTF-8, so that implementations in other languages can read them; a response (of any element length) decodes to itself, and any object decodes into a response member by member. A nil byte string (of a response for a bucket that was never written) is written as null, and decoding that gives an empty one, so that readers must take both.", "quantifier": "all requests, responses, configurations", "why_tests_cant": "All values.", "anchors": ["pkg/migp/client.go:ClientRequest", "pkg/migp/server.go:ServerResponse", "pkg/migp/common.go:Config", "pkg/migp/server.go:ServerConfig.MarshalJSON"]}
{"id": "C70", "title": "What the server learns from a run of the client program", "statement": "The messages the client program can send are fixed before the first query by the configuration in use, the input file and the random blinds: the request for the configuration unless -config is given, then one request per credential in order; the replies decide only after how many of them the program stops, and a program that ends without failure has sent all. For two input files whose credentials are pairwise in the same buckets there is a bijection of the blinds under which, against every strategy of the server, both programs send the beginning of one and the same sequence of messages: the server learns the buckets and when the program stops, nothing else. But when the program stops can say a lot: for every list of guesses a server can prepare its buckets so that the program goes on to its second query exactly if its first credential is one of the guesses (has the tag of one).", "quantifier": "all input files, flags, configurations, blinds, and all servers that choose each reply on the basis of all messages so far", "why_tests_cant": "Ranges over adaptive servers and over all blinds.", "anchors": ["cmd/client/main.go:main", "pkg/migp/client.go:Query", "pkg/migp/client.go:Client.Request"]}
{"id": "C71", "title": "The goroutines of the server, down to single memory accesses", "statement": "Let any number of goroutines insert records and any number answer requests, on one store, with records and requests in memory they may share, interleaved at the level of single accesses to bytes, to the map and to the lock. Then every state is explained by a sequence of store calls made one after the other: results are those of a sequential store, each goroutine has made the first of its calls in their order, and the store shows what those calls leave. A reply is exactly the library's reply on the store at one moment between its beginning and its end; in particular nothing loaded before is missed and nothing is torn. There is no data race, on a byte or on the map; memory that existed before is never changed; every access is to memory that exists; there is no deadlock; every schedule of finitely many goroutines ends. When one goroutine loads all records, the store ends up as if they had been inserted one after the other into an empty one, and every request that begins after that is answered from that store.", "quantifier": "all numbers of goroutines, records, requests, placements in memory, growth policies of append, interleavings of single accesses", "why_tests_cant": "All schedules at byte granularity; the race detector only sees the schedules that happen.", "anchors": ["cmd/server/server.go:server.insert", "cmd/server/server.go:server.handleEvaluate", "cmd/server/kv.go:kvStore.Append", "cmd/server/kv.go:kvStore.Get", "pkg/migp/server.go:Server.HandleRequest", "pkg/migp/server.go:ServerResponse.MarshalBinary"]}
{"id": "C72", "title": "Clients of a busy server", "statement": "While goroutines load records and goroutines of the HTTP server handle requests, interleaved at the level of single memory accesses, each HTTP reply (status, content type, body, for every path, also for bodies that do not decode) is exactly what the handler writes on an idle server whose store is that of one moment between the arrival of the request and the reply. So a client whose request comes after some goroutine has loaded its records is told of every credential of every inserted record of these (password, variants, username), whatever other goroutines load meanwhile; a client that is told of a breach asked for a credential that a goroutine that has begun by then stores (or one with the same bucket and key tag); and when one goroutine has loaded all records, every client that asks from then on is told exactly what looking its credential up in the list of all stored credentials gives, however many ask at once.", "quantifier": "all numbers of goroutines, records, HTTP requests (paths and bodies), growth policies, interleavings of single accesses, credentials and blinds", "why_tests_cant": "All schedules of clients, handlers and loaders.", "anchors": ["cmd/server/server.go:server.handleEvaluate", "cmd/server/server.go:server.handler", "cmd/server/server.go:server.insert", "cmd/server/kv.go:kvStore.Get", "pkg/migp/client.go:Query"]}
{"id": "C73", "title": "Command lines", "statement": "Both programs take flags with one or two dashes, as -name=value or (but for truth values) -name value, in any order and any number; of several values of a flag the last one counts and a flag that is not given has its documented default; numbers may be written as in Go (so 010 is eight), truth values in six ways each. A configuration is read from a file exactly if the name given is not empty, credentials come from standard input exactly if the name is -, and the client asks its target followed by /config and /evaluate. From the first word that is not a flag on, the command line is silently ignored; in particular -username-variant false switches the username entries on and everything after it off. Every other command line ends the program, before it has read a file or sent a message, with status 0 (help) or 2. Passwords are shown only if a word of the command line mentions -show-password. Started with such command lines, server and client together behave as in C60, with the metadata, number of variants and username entries as given.", "quantifier": "all command lines, files, networks", "why_tests_cant": "All lists of words.", "anchors": ["cmd/server/main.go:main", "cmd/client/main.go:main"]}
{"id": "C74", "title": "The store's lock is Go's lock", "statement": "The lock of the store is a sync.RWMutex: a goroutine that wants to write keeps out the readers that come after it, readers are woken by semaphores whose tokens any of them may take, and taking or giving back the lock is several steps. With this lock, for fewer than 2^30 goroutines and any interleaving of its single atomic operations, the server never deadlocks, never ends with \"Unlock of unlocked RWMutex\" (nor the like for RUnlock), none of the int32 counters overflows, no two accesses race, every finite number of goroutines comes to its end, and every run of the server is one of the runs described by C71, so that replies and the store are as said there.", "quantifier": "all numbers of goroutines below 2^30, records, requests, interleavings of single atomic operations of the lock and single memory accesses", "why_tests_cant": "All schedules, down to the atomic operations of the lock.", "anchors": ["cmd/server/kv.go:kvStore", "cmd/server/kv.go:kvStore.Append", "cmd/server/kv.go:kvStore.Get", "cmd/server/server.go:server.insert", "cmd/server/server.go:server.handleEvaluate"]}
{"id": "C75", "title": "What a response can make a client believe", "statement": "Nothing authenticates a response. Whoever knows a credential can, without any key, write one bucket that makes every client asking for it report any status and any metadata of at most 8160 bytes, whatever its blind; and an empty bucket makes every client report NotInBreach without error. But a response written without knowing what a client asks convinces few: among clients that derive pairwise different key tags from it, those that find something are at most one for every 25 bytes of its bucket. And an honest store that is served under a key other than the one it was filled with (a restart that generated a new key) answers NotInBreach without any error to everybody, unless the 20-byte tags of two different hashed strings coincide.", "quantifier": "all clients, credentials, blinds, metadata, responses, keys, histories of inserts", "why_tests_cant": "All responses and blinds; an honest test server never forges and keeps its key.", "anchors": ["pkg/migp/client.go:ClientRequestContext.Finalize", "pkg/migp/client.go:Client.Request", "pkg/migp/server.go:Server.HandleRequest", "cmd/server/main.go:main"]}
{"id": "C76", "title": "How large the store and the replies get", "statement": "After any history of inserts a bucket has exactly 25 bytes and the metadata for each stored credential whose username has that bucket, and a reply to a client is that plus four bytes and one group element: the size of a reply tells how many credentials its bucket has, and nothing else about the query. The sizes of all buckets add up to what the stored credentials take. After the server program has loaded a file this is, for each line that is a credential, one entry for the password, one for each variant and (with -username-variant) one for the username; never more than num-variants + 2 entries a line, and never more than 325.", "quantifier": "all histories, files, flags, credentials, blinds, sets of buckets", "why_tests_cant": "All files and histories; sums over all buckets.", "anchors": ["cmd/server/server.go:server.insert", "cmd/server/kv.go:kvStore.Append", "cmd/server/main.go:main", "pkg/migp/server.go:ServerResponse.MarshalBinary"]}
{"id": "C77", "title": "What every request body stands for, and what a missing member means", "statement": "The reply to /evaluate is determined, for every body, by the request the body stands for in the JSON grammar: the last usable value of each member, or 0 and the empty string for a member that is missing or unusable. This request is evaluated even if the body is in error; the status is 400 for a body in error, 500 if the request is refused, 200 otherwise. So a request without a version gets nothing but an error page from every server whose version is not 0, while a request without a bucket is answered like any other, with an empty bucket. In configurations a missing member is 0 as well: a file without slowHasher silently turns the slow hash off, one without bucketIDBitSize sends every client to bucket 00000000.", "quantifier": "all byte strings as bodies and files, all servers, stores, histories, credentials", "why_tests_cant": "All documents.", "anchors": ["cmd/server/server.go:server.handleEvaluate", "pkg/migp/client.go:ClientRequest", "pkg/migp/common.go:Config", "cmd/client/main.go:main", "pkg/migp/server.go:ServerConfig.UnmarshalJSON"]}
{"id": "C78", "title": "The target of the client program", "statement": "The target of the client program must be the bare address of the server: with it requests reach their handlers, and with anything appended to it (a slash, a path, a query, a fragment) the program, taking its configuration from the server, prints no answer, and does not exit with status 0 if its file has a credential. With a slash appended the configuration is still found (and -dump-config prints it), but the program fails at the first credential, because the server redirects the POST, at most once, and what was redirected arrives without its body. Both programs started without arguments find each other, and the client prints for every credential what the ideal lookup gives.", "quantifier": "all addresses, all strings appended to them, all files, stores, configurations, blinds", "why_tests_cant": "All strings appended to the address.", "anchors": ["cmd/client/main.go:main", "cmd/server/server.go:server.handler", "cmd/server/main.go:main", "pkg/migp/client.go:Query"]}
{"id": "C79", "title": "What the configuration a server serves can do to the client program", "statement": "The client program uses the configuration it is served without checking it. What a query shows of the username is exactly as many bits of its hash as the configuration says; at most 32, so two files whose usernames agree in 32 bits of their hashes cannot be told apart by any server, whatever configuration it serves (matching the blinds, both runs send the beginning of one sequence of messages). A bucket size outside 0..32 crashes the program at its first credential, and an algorithm the client does not have ends it there with status 1, in both cases before any query is sent.", "quantifier": "all configurations, files, flags, blinds, and servers that choose each reply on the basis of all messages so far", "why_tests_cant": "All configurations and adaptive servers.", "anchors": ["cmd/client/main.go:main", "pkg/migp/client.go:NewClient", "pkg/migp/client.go:Client.Request", "pkg/migp/common.go:bucketHashToID"]}
{"id": "C80", "title": "What calls cost, and what their duration can depend on", "statement": "The costly library calls of each function, and their order, are determined as follows. Answering a request takes nothing for a wrong version and otherwise one OPRF evaluation and at most one read of the store, whatever the request (a slow hash or a decryption never); for a client's own request they are the same for all credentials of a bucket, so the server's work tells nothing more than the bucket. A request costs the client one slow hash, one blinding and one hash of the username, on inputs whose lengths depend only on those of username and password. Finalize never computes a slow hash and asks for at most one short pad for every 25 bytes of the response and one further pad no longer than the response, whatever the server sends; on a bucket filled by inserts it asks for one pad per entry up to the first one of the credential and one for its metadata, so its duration tells whether and where the credential was found. An insert makes one slow hash, one OPRF evaluation, two pads and one append for each credential it stores; one that returns an error has cost one slow hash and one evaluation and appended nothing; loading a file makes exactly one evaluation and one append per stored credential.", "quantifier": "all requests, HTTP bodies, responses, networks, credentials, blinds, records, files, histories", "why_tests_cant": "All inputs; tests do not count the calls.", "anchors": ["pkg/migp/server.go:Server.HandleRequest", "pkg/migp/client.go:Client.Request", "pkg/migp/client.go:ClientRequestContext.Finalize", "pkg/migp/client.go:Query", "pkg/migp/server.go:Server.EncryptBucketEntry", "cmd/server/server.go:server.insert", "cmd/server/server.go:server.handleEvaluate", "cmd/server/main.go:main"]}
{"id": "C81", "title": "What the server program writes to its log", "statement": "Until it serves, the server program logs exactly this: a line with two zeros; for each line of the file that is imported, in order, a line with the number of lines imported up to it and the number of those that failed before it; and a line saying that it starts. If it crashes while it loads the file it has logged the beginning of this. Nothing of the credentials is in the log: two files with colons in the same lines leave the same log. Failed lines are reported only by the next line that succeeds: failures after the last success are never mentioned, and an import that stores nothing (such as one with metadata of more than 8160 bytes) logs what the import of an empty file logs. A request to /evaluate logs nothing exactly if it is answered with status 200, else one line if its body does not decode and one if the request read from it is refused, with a fixed text followed by an error.", "quantifier": "all files, flags, configurations, ways of reading the file in pieces, request bodies, stores", "why_tests_cant": "All files and bodies; tests do not look at the log.", "anchors": ["cmd/server/main.go:main", "cmd/server/server.go:server.handleEvaluate"]}
{"id": "C82", "title": "A client whose configuration is not that of the server", "statement": "Only a difference in the version is noticed: every query is refused with an error, and the client program stops at its first credential with status 1 and prints nothing. With the same version and suite a query never fails; it reports NotInBreach without any error unless some stored credential has, hashed as the server hashes it, the bucket and the 20-byte key tag that the client computes. So with another number of bucket bits everything is reported as not in a breach, except for a username whose hash begins with as many zero bits as the larger of the two numbers, for which the answers are those of a client with the right configuration, and except for coincidences of tags with other usernames; with another slow hash everything is, unless tags of different strings coincide or username and password have 28 bytes together (so that the unhashed string can be as long as a hash). Where there is no such coincidence the client program prints, for every credential of its file, that it is not in a breach, and exits with status 0. Whatever the difference, a client told of a breach has met an entry with its bucket number and tag.", "quantifier": "all pairs of configurations, servers, histories, files, credentials, blinds", "why_tests_cant": "All pairs of configurations; the tests use one for both sides.", "anchors": ["pkg/migp/client.go:NewClient", "pkg/migp/client.go:ClientRequestContext.Finalize", "pkg/migp/server.go:Server.HandleRequest", "pkg/migp/common.go:bucketHashToID", "cmd/client/main.go:main"]}
{"id": "C83", "title": "What the lines of the server's file, their order and the flags decide", "statement": "What the client program prints about a credential is decided by the lines of the server's file with its username alone: it is what the first of them says that says anything, a line saying 'password in breach' if it has this very password, 'similar password in breach' if the password is one of its first num-variants variants, 'username in breach' if the password asked for is empty and -username-variant is on. Configuration and key have no influence, and -metadata is only passed on, with every verdict but 'not in breach'. So lines added at the end change no verdict but 'not in breach', lines added anywhere never lead back to it, and the order of the lines matters only for a password that two lines of the user say different things about. A larger -num-variants never leads back to 'not in breach' either; but it can turn 'password in breach' into 'similar password in breach', if an earlier line of the same user has a password the new variants of which include this one. -username-variant changes the answers to empty passwords only, and then every user of the file is reported.", "quantifier": "all files (of the server and of the client), flags, configurations, keys, blinds", "why_tests_cant": "All files, all reorderings and extensions of a file.", "anchors": ["cmd/server/main.go:main", "cmd/server/server.go:server.insert", "cmd/client/main.go:main", "pkg/mutator/rdasmutator.go:RDasMutator.Mutate"]}
{"id": "C84", "title": "What a bucket shows to a client that does not know its credentials", "statement": "After any history, what a server sends as a bucket is, for each credential stored in it, in order, a tag of 20 bytes, a masked flag, the length of the metadata in the clear and the masked metadata, where tag and masks depend on the credential and the server's key alone. Everybody who gets the bucket therefore sees its shape: how many entries there are, how long the metadata of each is, which entries are of the same credential, and for these the XOR of their flags and of their metadata (equal bytes from any two servers mean equal shapes, unless two different credentials of a bucket have the same tag). And nothing more: if the masks of different credentials are independent, two buckets of the same shape cannot be told apart, not even by somebody who knows some of the credentials, if the entries of these are the same in both.", "quantifier": "all histories of inserts, servers, keys, buckets, sets of known credentials", "why_tests_cant": "All pairs of stores and all tables of masks.", "anchors": ["pkg/migp/encryptor.go:hkdfSHA256BucketEncryptor.Encrypt", "pkg/migp/server.go:Server.EncryptBucketEntry", "pkg/migp/server.go:Server.HandleRequest", "cmd/server/server.go:server.insert"]}
{"id": "C85", "title": "The protocol on the wire, for other implementations", "statement": "The client posts one JSON document with exactly three members: its configured version in decimal, the number of the username's bucket in eight lower-case hexadecimal digits, and in canonical base64 the encoding of the hashed credential multiplied by the blind. What it returns is a function of what comes back, given in closed form for every reply: an error for a failed request, a status other than 200, fewer than 37 bytes, another version modulo 2^16 or 33 bytes that are no element, and otherwise the first entry of the bucket whose tag is that of the OPRF output. Whoever posts a document with these members, in any order, spelling of the names and company of other members, and with a version that is the server's modulo 2^16, is answered with status 200 by exactly the version sent, the element multiplied by the inverse of the tweaked key and the masked entries of the bucket; so any client that follows these rules, with any blind other than zero, gets what looking its credential up in the list of all stored credentials gives.", "quantifier": "all credentials, blinds, request documents, replies, histories of inserts", "why_tests_cant": "All documents and replies, not only those the client and the server of this package write.", "anchors": ["pkg/migp/client.go:Query", "pkg/migp/client.go:ClientRequestContext.Finalize", "pkg/migp/server.go:Server.HandleRequest", "pkg/migp/server.go:ServerResponse.UnmarshalBinary", "cmd/server/server.go:server.handleEvaluate"]}
{"id": "C86", "title": "Crashes, restarts and failing disks", "statement": "The server process may be killed at any moment, also in the middle of its import, and started again at any moment, each time perhaps with a new key; the credentials file may be replaced, reading it may fail after any number of bytes, and requests and replies may be lost or cut. At every moment a process that serves has the key and the store that the server program comes to on the bytes it was delivered, from the first line to the last: nothing of earlier processes is in it, and no store is served that only part of the lines were read into. So whatever happens, a client of the public configuration is told an error, or the verdict (C83) of a file that was in place at some time, or of its beginning if reading it failed. While the file stays the same and can be read, crashes, restarts and the new keys that come with them change no verdict; while it only grows at its end, a breach that was told once is told word for word in every later answer that is not an error; and a server started again and left alone gives the verdicts of the file in place. But a failing disk is noticed by nobody: the server then gives the verdicts of the bytes before the error, so that a breached password is reported as not in a breach.", "quantifier": "all interleavings of crashes, restarts, steps of the import, replacements of the file, read errors, lost and cut messages and queries; all files, flags, keys, credentials, blinds", "why_tests_cant": "All crash points and histories; the tests never kill the server.", "anchors": ["cmd/server/main.go:main", "cmd/server/server.go:newServer", "cmd/server/server.go:server.insert", "cmd/server/kv.go:newKVStore", "pkg/migp/client.go:Query"]}
{"id": "C87", "title": "Input that comes in pieces", "statement": "Both programs take their credentials from a file or from a pipe or terminal on which more may come at any time. Whenever the client program calls Read, and so before it can have to wait, it has asked about every credential among the lines it was given to their ends, in order, and printed every answer: each line is answered before the next has to be there. When it ends, its output and exit status are those of a file with just the bytes it was given, however they came in pieces; a read error is like the end. The server program comes to listening only after a call of Read that failed (the end or an error) or after 65536 bytes without a newline: as long as its input stays open it reads, and serves nobody; its store and counters are then those for a file with just these bytes, and so is its panic. On a file, whatever the sizes of the pieces, both are done after at most three steps per byte and two; and on any input the number of steps is bounded by the calls of Read and the bytes they brought, so neither is ever busy for ever between two calls.", "quantifier": "all readers (sequences of pieces, empty reads, errors, also depending on the space in the buffer), all numbers of steps, networks, flags, configurations", "why_tests_cant": "All ways to cut an input into pieces, and inputs that never end.", "anchors": ["cmd/client/main.go:main", "cmd/server/main.go:main"]}
{"id": "C88", "title": "Stores built in pieces", "statement": "How an insert ends and what it appends do not depend on what the store holds. So a list of records may be encrypted in pieces, by several servers of one configuration and key or at several times, and the buckets put together: under every key the stores one after the other are what inserting all records in order gives, and the server program on two files one after the other (the first of whole lines of at most 65535 bytes) comes to the two stores put together and the sums of the counters. Two stores put together are answered from the first, and from the second only if the first knows nothing; the order decides nothing but between two answers that both report something. Records may also be divided by bucket: a server with all records of a bucket gives, for requests for this bucket, byte for byte the replies of a server with all records; and the order of records matters only within a bucket. But only whole buckets can be put together: after a bucket that was cut within an entry, which nobody notices, what follows is lost.", "quantifier": "all lists of records and ways to divide them, stores, files, ways of reading them, requests, credentials, blinds, outcomes of the single inserts", "why_tests_cant": "All divisions of all lists of records.", "anchors": ["cmd/server/server.go:server.insert", "cmd/server/main.go:main", "cmd/server/kv.go:kvStore.Append", "pkg/migp/server.go:Server.HandleRequest", "pkg/migp/client.go:ClientRequestContext.Finalize"]}
{"id": "C89", "title": "Replies that belong to other requests", "statement": "A reply is of use only with the request it was made for. Finalize with the reply to any other request - for another credential, or for the same one with another blind - reports NotInBreach without any error, whatever is stored, unless 20-byte tags coincide; so replies of concurrent requests that are mixed up, a cache, or a replayed reply silently turn a breached password into one that is not in a breach, and never the other way round; the same holds of Query when the network answers with what the server sent for an earlier query. A reply to this very request, whenever it was made, gives the answer for the store at that time.", "quantifier": "all pairs of credentials and of non-zero blinds, all histories of inserts, all transports", "why_tests_cant": "All blinds and pairs of requests; in tests every reply comes to its own request.", "anchors": ["pkg/migp/client.go:Client.Request", "pkg/migp/client.go:ClientRequestContext.Finalize", "pkg/migp/client.go:Query", "pkg/migp/server.go:Server.HandleRequest"]}
{"id": "C90", "title": "Changing the configuration of an existing store", "statement": "A store that has been filled can be served under another version without touching it: every query of clients with the new version is answered as before. Entries depend on nothing of the configuration but the slow hash, the suite and the key, and the server's replies do not depend on the number of bucket bits. With fewer bits the bucket of a username is numbered by the leading bits of its number before; so a store is given fewer bits, without knowing what is in it, by putting together the buckets whose numbers have the same leading bits, which is possible for every store, and then every query is answered as before (unless a stored credential of another bucket has the 20-byte tag of the one asked for). Served under another number of bits with its buckets as they are, the store is silently as good as empty: every password of a username is reported as not in a breach, without an error, unless the hash of the username begins with as many zeros as the larger number of bits or tags of different usernames coincide.", "quantifier": "all stores reached by inserts, configurations, versions, numbers of bits, credentials, blinds", "why_tests_cant": "All stores and pairs of configurations; tests use one configuration for filling and serving.", "anchors": ["pkg/migp/server.go:Server.HandleRequest", "pkg/migp/server.go:Server.EncryptBucketEntry", "pkg/migp/server.go:Server.BucketID", "pkg/migp/common.go:bucketHashToID", "pkg/migp/client.go:ClientRequestContext.Finalize"]}
{"id": "C91", "title": "The default suite with the real group", "statement": "With the real SHA-256, scrypt and P-256 all that the other properties assume of the libraries holds. The group has prime order, so there are no small subgroups to confine an element to. A server answers a request iff the bytes of its element are the compressed or the uncompressed form of a point of the curve (or one zero byte, for infinity): points off the curve, coordinates that are not reduced and any other bytes are an error; both forms of a point get the same reply. The element of the reply is the compressed form of the one point that, multiplied by the key plus a constant, gives the point sent: 33 bytes, unless infinity was sent. What a client sends is the compressed form of its blind times the point its credential hashes to, 33 bytes unless one of them is zero; it refuses replies whose element is not the form of a point. The default configuration takes exactly the keys below the order, and all of them but one work; the one makes every request and entry an error. Under every other key an entry that is made for a credential is found with its status and metadata. Requests are perfectly hiding: for every credential each point but infinity is sent for exactly one non-zero blind. Over HTTP a query answers what looking the credential up in the list of what was stored gives, absent tag collisions, if the key works, the blind is not zero and the credential does not hash to infinity, and in each of these other cases an error, never a wrong verdict; and a client accepts no element but the compressed form of a point that is not infinity, whoever replies. With every other key the two programs together print what looking the client's credentials up in the list of what the server has stored gives. The client program prints these answers up to the first query with a bad key, blind or hash, and ends there with status 1.", "quantifier": "all points, byte strings, keys, credentials, blinds, requests, replies", "why_tests_cant": "The group has about 2^256 elements, keys and encodings.", "anchors": ["pkg/migp/server.go:Server.HandleRequest", "pkg/migp/client.go:ClientRequestContext.Finalize", "pkg/migp/client.go:Client.Request", "pkg/migp/server.go:NewServer", "pkg/migp/common.go:DefaultOPRFSuite"]}
{"id": "C92", "title": "Stores filled under several keys", "statement": "A store may be filled by servers with other private keys, slow hashes, suites or versions than the server that answers from it, in any order (with the same number of bucket bits). What others have put there - before, between and after - changes no answer: a server answers as from a store that holds just what servers with its own key, slow hash and suite have put there, in that order, unless an entry of the others in the bucket of the username has the 20-byte tag of the credential asked for; so absent tag collisions it answers what looking up the earliest of these entries for the credential gives, also over HTTP, and what was stored under its key is always found. A store that holds nothing of the server's key is silently as good as empty: after a change of the key alone every password is reported as not in a breach, without an error. But a key can be changed safely: fill the store once more, under the new key; then a server of the old key answers as before, and one of the new key as from an empty store filled with these records. For one credential under keys that differ modulo the group order what is hashed is different, so a coincidence is one of the hash.", "quantifier": "all histories of inserts, refused inserts and single entries by servers of all configurations with one number of bits; all credentials, non-zero blinds, lists of records", "why_tests_cant": "All interleavings of inserts under different keys; the tests have one key.", "anchors": ["pkg/migp/server.go:NewServer", "pkg/migp/server.go:Server.EncryptBucketEntry", "pkg/migp/server.go:Server.HandleRequest", "pkg/migp/client.go:ClientRequestContext.Finalize", "cmd/server/server.go:server.insert", "cmd/server/kv.go:kvStore.Append"]}
