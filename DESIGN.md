# Formal model of cloudflare/migp-go in Lean 4

## Layout

| Module | Models / proves |
|---|---|
| `Verif/Go/*` | Go semantics and library functions used by the code: results with error and panic, byte slices with bounds panics, big-endian, hex, base64, UTF-8, `encoding/json` (scanner, struct decoding, encoder), `bytes.*`, `bufio.Scanner`, `net/http` response writer, HMAC/HKDF, murmur3, SHA-256 and scrypt (for examples and C91), the interface `Ext` to the remaining libraries |
| `Verif/P256/*` | the curve P-256, its group, encodings and hash: the default OPRF suite itself (C91) |
| `Verif/Model/*` | the code of `/repo`, function by function, with file:line citations |
| `Verif/Spec/*` | small independent specifications (no model helpers) |
| `Verif/Lemmas/*` | helper lemmas |
| `Verif/Props/*` | the property theorems `Cnn_*`, one file per area, with non-vacuity examples next to them; `Props/Witness*.lean` holds the concrete cases that need a running server |
| `Verif/Example/*` | a concrete `Ext` (real SHA-256, a toy prime-order group with the default suite's sizes) and a server and client on it |

## Modelling decisions

* `[]byte` and `string` are `List UInt8`; `nil` vs empty is an explicit `Option` where a
  caller can see the difference (metadata returned by `Finalize`). Where sharing of memory matters there is a
  second model with a heap (`KVHeap`, `KVMem`; `MutatorHeap`, `LibraryHeap`, `ImportHeap`, `ServerConc` over `Go/Heap`).
* A Go function returning `(T, error)` is `Res T` = `ok | err | panic`. `Finalize` and
  `Query` return the Go triple explicitly, because callers can read the status next to an error.
* `make`/`copy`/`PutUintN` on sub-slices are modelled as buffer operations with Go's bounds
  panics, so that the theorem "the result is this concatenation" is about the index arithmetic.
* Go `int` is `Int`/`Nat` (64-bit, where no operation of the code can overflow for slices that
  fit in memory); 32-bit `int` is modelled separately for the `Finalize` loop (C23).
* Randomness (blinds, keys) is a universally quantified argument.
* Everything a run-time may choose (growth of `append`, sizes of `read(2)` results, contents of spare capacity
  seen by `encoding/json`, schedules of goroutines) is a universally quantified argument or a nondeterministic step.
* External libraries are a structure `Ext` of arbitrary functions with explicit laws: SHA-256
  (any function with 32-byte output), scrypt core (any function with the requested output length),
  OPRF suites (`circl`): an arbitrary prime-order group with serialisation laws. HMAC,
  HKDF and murmur3 are modelled concretely.  A concrete `Ext` with the real SHA-256 and toy
  suites is constructed to show that the laws are satisfiable and to run end-to-end examples.

## Properties: what is modelled and how it is proved

(C-numbers refer to properties.jsonl; the theorem names are in MANIFEST.json.)

| Property | Model | Proof |
|---|---|---|
| C01, C02 | `serializeUsernamePassword` as buffer operations | result = concatenation; injectivity by list length arithmetic; exact collision family at 65536 |
| C03 | `bucketHashToID` on `UInt32` with Go shift semantics | equality with `be32 / 2^(32-b)` |
| C04 | `BucketIDToHex`, `hex.DecodeString` | digit-by-digit inverse |
| C05 | flag tables on all of `UInt8` | case analysis |
| C06-C11 | `Encrypt`, `DecryptHeader`, `DecryptBody`, `derivePad`, HKDF reader | XOR algebra, HKDF block prefix lemma |
| C12, C13 | constructors and `Config()` | case analysis on IDs |
| C14-C16 | `Request`, `deriveBucketEntryKey`, OPRF algebra over `ZMod q` (and over any prime-order group by `Suite.ofGroup`) | field algebra; bijection on units |
| C17-C19 | `HandleRequest` over an arbitrary `Getter` | decision logic |
| C20, C21 | `MarshalBinary`/`UnmarshalBinary` via the `bytes.Buffer` reads | list arithmetic |
| C22-C25 | `Finalize` loop, well-founded recursion; 32-bit machine with wrap-around | induction over entries / offset (the whole of `Finalize` also with machine integers, C22_finalize_64, C23_finalize_32); invariant for divergence, and the exact step of the 32-bit loop (C23_step, C23_same); relation `Spec.Answers` read off the wire format |
| C26-C32 | server state = store; history = list of insert records; `Query` in-process | refinement to an ideal first-match lookup |
| C33-C42 | mutator functions, rules table read by the JSON model from the literal text of dasrules.go | induction over the rule list; murmur3 round bijectivity |
| C43-C45 | `insert` | induction over variants |
| C46 | store as a function | refinement to a map |
| C47 | heap of arrays, slices with offset/len/cap, nondeterministic growth | frame invariant on owned arrays |
| C48, C49 | goroutines as micro-step machines with RWMutex | mutual exclusion invariant + simulation by the sequential log |
| C50-C54 | `handleEvaluate`, `handleConfig`, ResponseWriter, JSON codec, `Query` | decision logic, parser/printer inverse |
| C55-C57 | `bufio.Scanner` with its buffer and arbitrary read sizes, `SplitN`, main loops | induction over the input |
| C58 | scrypt parameter validation | computation |
| C59 | `ServeMux` patterns of `handler()` | case analysis on the path |
| C60, C61 | `main` of both programs: configuration, import or queries, dumps | composition of C26-C28, C53-C57 |
| C62 | goroutines and heap in one model: byte-by-byte `append`, readers of `Get`'s slice without the lock | forward simulation to the C48 model + frame invariant of C47 at every micro-step |
| C63 | the JSON decoder of `Model/Json` on every document | a separate grammar (`Spec/JsonGrammar`, strings by `StringIs` over `Spec/Utf8`, byte strings by `Spec/Base64`: bits in groups of six) and a separate reading of members; machine and parser proved to accept exactly it, fields by induction on members; fields of bytes also for arrays with other things in them (`Spec/ByteField`); exact outcome for server configurations (`Props/ServerJson`) |
| C64 | the client program's choice of configuration | case analysis against a specification of sources |
| C65 | second models of the mutator and the library as trees of memory accesses (a free monad) on a heap of arrays; slices are array, offset, length, capacity | simulation of the value models, with a frame (all old arrays unchanged) and freshness of results |
| C66 | the import loop on the heap; the scanner may do anything to its own arrays between lines; `append` by any growth policy | invariant: buckets are disjoint from the scanner's arrays, from one another and show the value store; induction over lines |
| C67 | `UnmarshalBinary` with its receiver, on the heap | computation by length of the input |
| C68 | the heap models are trees of single accesses (allocate, read a byte, write a byte); goroutines take such steps in any order | each goroutine knows the old memory and what it made; invariant: the known parts are pairwise disjoint outside the old memory, and each rest of the code is safe for what is known; well-founded order on the rests of the code |
| C69 | `marshalJSON` of requests, responses and configurations; `ServerResponse.unmarshalJSON` | the text is parsed (C63_grammar) to members whose numbers are `IsDecimal` and whose byte strings are `CanonicalBase64` (RFC 4648 by bits); nil slices in `Model/JsonNil` |
| C70 | `clientTalk`: the client program as a conversation (every message, and what is done with each outcome) against a server that is any function of all messages so far | same outcome as `clientMain` on fixed networks; messages = prefix of a list fixed beforehand; per-credential bijections of C16 lifted to runs; for the leak, a bucket of guess entries followed by a header that overruns |
| C71 | `insert`, `HandleRequest`, `MarshalBinary` and the store's calls as trees of single accesses (bytes, map, lock); any number of goroutines take such steps in any order; `append` may grow an array to any size | each goroutine has a view: bytes that will not change any more (also beginnings of the store's arrays) and arrays that only it writes to; invariant: views agree with memory and exclude each other, modes agree with the lock, the store shows what the log of calls leaves; the log grows at the access of the map; well-founded order on the rests of the code |
| C72 | the HTTP handlers as further goroutines of the C71 model (`serveS`: the body read into new memory, decoded, `HandleRequest`, `MarshalBinary`, the reply read back byte by byte); JSON decoding itself is a function of the bytes read; a client's `Query` gets what the goroutine for its request wrote | the handler's code is simulated by the value-level handler on the bytes that its one `Get` returned; the log of C71 is turned into a `History` (one entry per call, each goroutine's in its order), to which C26, C27, C28 and C54 apply |
| C73 | `flag.Parse` and `strconv.ParseInt`/`ParseBool` on lists of words, the flag tables of both programs, and the programs from their command lines | a grammar of settings, and of Go's numerals (`Spec/CommandLine`); parser proved to accept exactly it, by induction on the words; per variable, the last value counts; composed with C60 |
| C74 | Go's `sync.RWMutex` under the goroutines of C71: counters, inner mutex, semaphores, one step per atomic operation; a goroutine has a place within `Lock`, `Unlock`, `RLock` or `RUnlock` | invariant by the phase of whoever has the inner mutex: `readerCount`, `readerWait` and the tokens are accounted for by the numbers of goroutines that read, queue, leave and wake; simulation by C71 (its lock is taken where the counters say so), progress by cases on the phase, lexicographic order of code and place for termination |
| C75 | `Finalize` on responses of any origin; a store reached by a history under one key, served under another | C24/C25 for a bucket written without a key (the blinded element echoed); the bucket parsed once for all clients and counted; the search of C26 with the key of another server, whose OPRF outputs are hashes of different strings |
| C76 | stores reached by histories, `MarshalBinary`, `serverMain` | the invariant of reachable stores with lengths in place of bytes; a sum over distinct keys by induction over the stored credentials; C55 for the program, C33 for the number of variants |
| C77 | `handleEvaluate` and the configurations with a relation `StandsFor` between bodies and requests that mentions only the JSON grammar | C50, C51 and C63 put together; LastWins over a list without usable members keeps the zero value |
| C78 | URLs made from the target, `ServeMux` redirects and the client that follows them (`Model/Web`), both programs | `path.Clean` is idempotent, so one redirect suffices; unescaping of appended strings by induction; C59 for wrong paths; C60 and C73 for the quick start |
| C79 | `clientTalk` (the client program against an adaptive server) with arbitrary configurations | bits of the hash: numbers of equal length are determined by their bits, C03; C70 for 32 bits; C02 and C12 for crash and refusal |
| C80 | the functions once more with a list of the library and store calls they make (`Model/Cost`); running times themselves are not modelled | the traced functions have the results of the functions (`C80_same_results`), then the calls by the same inductions as the results: over the bucket, the variants, the lines |
| C81 | the server program, its import loop and `/evaluate` once more with the messages they log (`Model/Log`); the texts of errors within messages are not modelled | the logging functions have the results of the functions (`C81_same_results`), then the messages by induction over the lines, against a separate definition of the counters (`Spec/Log`) |
| C82 | exchanges and the client program (`exchange`, `clientMain`) with a client and a server made from two configurations | a server with the client's configuration handles requests as the real one does (`twin`), so the reply is the bucket with the client's number; bucket numbers with two different numbers of bits agree only if both are 0; C04 for the input of the OPRF |
| C83 | both programs, as for C60 | the list of stored credentials is read line by line (`Spec/Verdict`, a file of its own), then induction over the lines; C34 for the variants |
| C84 | the stores of all histories, and buckets with arbitrary tables of masks (`Spec/BucketView`) in place of HKDF for the second half; that HKDF masks look independent is a computational assumption and not modelled | the bucket after a history (`history_invariant`) is a masked one; masked buckets are parsed entry by entry; a permutation of credentials and a shift of the masks map one bucket to the other |
| C85 | requests as members of a JSON document, replies as bytes, what a client makes of a reply as an inductive relation (`Spec/Wire`); the functions are those of the rest of the model | composition of C63, C69 (documents), C17, C84 (reply), C20, C25 (reading it), C54 (the answer) |
| C86 | the server process as a state machine (`Model/Restart`): down, importing one line per step, serving; events start it, kill it, replace the file, let reading fail, and send queries over connections that may break | an invariant over all event lists (`Started`: the store is what the import of the lines read so far gives), then C55, C54, C28 and C83 for the answers, and a simulation of `serverMain` for starting again |
| C87 | `bufio.Scanner` on an arbitrary `io.Reader` (`Go/Reader`), with every call of `Read` as an event, and the loops of the two programs on these events (`Model/Stream`) | an invariant (`Good`) of the scanner's buffer over all events; when it reads, no newline is held; then C57 and C55 for what the loops do with the lines; a measure for files |
| C88 | the functions of the rest of the model; stores put together (`Spec/Pieces`) | `insert` commutes with putting bytes before every bucket (induction over the variants), so does the import; then C24 for the answers, C31 for the division by bucket |
| C89 | the functions of the rest of the model, a client's context with a reply made for another request | the group element that the client derives is the right one only if the two requests are equal; then the search in reachable stores (`history_search`) |
| C90 | the functions of the rest of the model under two configurations; stores with adjacent buckets put together (`Spec/Pieces`) | the version is compared only with itself; the bucket number with fewer bits is a quotient (C03); the search in the concatenated buckets finds nothing in the buckets that were not the username's |
| C91 | the libraries themselves: SHA-256, scrypt (`Go/Scrypt`) and P-256 (`P256/*`: the curve as Mathlib's group of points, the SEC 1 encodings, `hash_to_curve`, the OPRF's framing) as an `Ext` without stand-ins; encodings by `Spec/P256` | Pratt certificates for the two primes; the base point has order q (double-and-add with given slopes, checked by the kernel), the equation has at most 2p+1 points, none of order 2, so the group has exactly q; Euler's criterion for square roots and for the map to the curve; then `Suite.ofGroup` and C17, C28; C91_programs is C55 and C60 with these libraries, C91_query is C54 with them, where the cases that C54 leaves out are errors since no encoding of 33 bytes begins with a zero |
| C92 | stores filled by servers of several configurations (`SharedHistory`: any interleaving of `insert`s and single entries, each by a server of its own configuration with the common number of bits) | the bucket is the concatenation of the entries of all (invariant by induction); the search skips entries of other keys unless tags coincide, so it is the search among the server's own; what they have stored can be stored by one server alone |

No property of the list is out of reach of a model; what is outside the model altogether is listed below.

## Coverage of /repo, function by function

| Code | Model |
|---|---|
| pkg/migp/common.go: constants, `DefaultConfig`, `MetadataType.{String,Valid,ToBreachStatus}`, `BreachStatus.String`, `serializeUsernamePassword`, `bucketHashToID`, `BucketIDToHex` | `Model/Common` (all) |
| pkg/migp/hasher.go, slowhasher.go | `Model/Hasher` (all; SHA-256 and the scrypt core are parameters, scrypt's parameter checks are modelled) |
| pkg/migp/encryptor.go | `Model/Encryptor` (all), HKDF reader in `Go/Hkdf` |
| pkg/migp/client.go: `NewClient`, `BucketID`, `Request`, `Finalize` | `Model/Client` |
| pkg/migp/client.go: `Query` | `Model/Http` (the HTTP round trip is an arbitrary function from body to failure / status and body) |
| pkg/migp/server.go: types, `Config`, `DefaultServerConfig`, `NewServer`, `deriveBucketEntryKey`, `BucketID`, `EncryptBucketEntry`, `HandleRequest`, `MarshalBinary`, `UnmarshalBinary` | `Model/Server`; on a heap, `Model/LibraryHeap` (also the functions of common.go, client.go and the hashers that handle slices) |
| pkg/migp/server.go: JSON of `ServerConfig`; JSON tags of all wire types | `Model/Json` |
| pkg/mutator/rdasmutator.go | `Model/Mutator` and, on a heap, `Model/MutatorHeap` (`Mutate`, `switchCase`, the four rule functions), `Model/Rules` (`NewRDasMutator`) |
| pkg/mutator/dasrules.go | `Model/DasRulesText` (the literal, copied by tools/gen_rules_text.py), `Model/DasRules` (what the JSON model reads from it, proved equal) |
| cmd/server/kv.go | `Model/KV` (values), `Model/KVHeap` (shared memory), `Model/KVConc` (goroutines), `Model/KVMem` (both), `Model/ServerConc` (with `insert` and `HandleRequest`, single accesses), `Model/ImportHeap` (`Put`/`Append` and the import loop on the library's heap) |
| cmd/server/server.go | `Model/CmdServer` (`newServer`, `insert`), `Model/InsertCalls` (`insert` as a sequence of store calls), `Model/Http` (`handler`, `handleIndex`, `handleConfig`, `handleEvaluate`) |
| cmd/server/main.go, cmd/client/main.go | `Model/Main`; their command lines `Model/CommandLine`; their URLs and redirects between them `Model/Web` |
| cmd/server/main.go as a process that is killed and started again | `Model/Restart` |
| the loops of cmd/client/main.go and cmd/server/main.go on pipes and terminals | `Go/Reader`, `Model/Stream` |
| the library and store calls made by `Request`, `Finalize`, `Query`, `EncryptBucketEntry`, `HandleRequest`, `handleEvaluate`, `insert` and the import loop | `Model/Cost` |
| the log of the server program and of `/evaluate` | `Model/Log` |
| the external libraries `circl/oprf`, `circl/group` (P-256), `crypto/sha256`, `x/crypto/scrypt`, `x/crypto/hkdf` | parameters with laws (`Go/Ext`); concretely `P256/*`, `Go/Sha256`, `Go/Scrypt`, `Go/Hkdf` |

Not modelled: `flag.Usage` texts; texts of errors, and of log lines of the client (only which error, by
constructor, and that a warning is logged); TCP, TLS, HTTP framing, header canonicalisation, timeouts and body
sniffing in `net/http` (a request is a path and a body or a read failure, a response is a status, two headers and a
body); URLs beyond host, path, query and fragment; file opening and closing beyond
"fails" / "these bytes"; memory exhaustion; running time and side channels beyond the order of the library calls (`Model/Cost`, C80); the files `*_test.go`.
Statements about cryptographic hardness (that HKDF tag collisions or OPRF pseudorandomness breaks are infeasible)
are not made: where security would need them, the theorems name the exact collision event instead (C08, C27, C28).

## Trusted base

* Lean 4.33.0's kernel and the Mathlib modules imported. No `native_decide`, no `bv_decide`, no axioms
  of our own. Every theorem of MANIFEST.json depends on at most `propext`, `Classical.choice` and `Quot.sound`
  (vcheck prints them); `decide +kernel` (the kernel's own evaluation) is used in examples and for closed computations on
  particular numbers, such as the certificates of C91.
* That the model says what the code says. The theorems are about the definitions in `Verif/Model`, which were written
  by reading /repo; nothing was executed. The citations in the comments are meant for checking this.
* That the library models agree with the libraries. Their sources were not available in the sandbox; they are written
  from knowledge of: `encoding/json` (scanner machine, struct field matching exact-then-fold, duplicate keys,
  `null`, numbers into sized integers, base64 into `[]byte` including the array form, HTML escaping on output),
  `encoding/base64`, `encoding/hex`, `unicode/utf8`, `unicode` on Latin-1, `encoding/binary`, `bytes`
  (`Buffer.Read`, `ReplaceAll`, `SplitN`), `bufio.Scanner` with `ScanLines` (buffer 4096 to 65536, silent end on a
  too long line or a read error because the programs never call `Err`), `flag` and `strconv` (`int` of 64 bits), `sync.RWMutex` (exclusion contract only in C48, C49
  and C71; down to its atomic operations, its inner `sync.Mutex` and its two semaphores in C74), `net/http` (`ResponseWriter` status and header rules, `http.Error`, `ServeMux` with its 301 redirects, a client that follows them
  with GET), `net/url` (splitting and unescaping),
  `golang.org/x/crypto/hkdf` (255 block limit), `crypto/hmac`, `x/crypto/scrypt` (parameter checks),
  `spaolacci/murmur3` `Sum32`, and the limit of `make([][]byte, 0, n)` (`maxSliceCap`).
* The laws of `Ext` (`Verif/Go/Ext.lean`): SHA-256 returns 32 bytes; scrypt returns the requested number of bytes;
  `circl/oprf` in base mode computes `ser(r·H(x))`, `ser((k+h(info))⁻¹·P)`, `finalizeHash(x, info, ser(r⁻¹·Z))` over a
  group of prime order, with an error when `k+h(info) = 0` or an element does not deserialise; elements
  survive serialisation and non-identity elements have a fixed size, 33 bytes for the default suite; keys accepted
  by `oprf.NewServer` survive serialisation. `Suite.ofGroup` proves that representing the group by `ZMod q` loses
  nothing. These laws are hypotheses (fields of a structure that every theorem quantifies over), not axioms, and
  `Verif.Example.Ext` is an instance. For the default suite they are proved: `Verif.P256.ext` consists of the real SHA-256, scrypt
  and P-256 (written from FIPS 180-4, RFC 7914, FIPS 186-4, SEC 1, RFC 9380 and the OPRF draft 08, with test vectors of the
  first, the second and the fifth checked by the kernel), and C91 is about it. What is left to trust there is that `circl` and Go's
  `crypto/elliptic` compute these functions (the domain separation tags of the OPRF draft in particular could not be compared with the
  library's source; no law depends on them, only the number of the unusable key in C91_keys). The suites for P-384 and P-521 remain parameters.

## Findings (behaviour of the code that a reader of its comments may not expect; each is a theorem)

* The credential encoding is not injective at component length 65536 (C02), and longer components panic.
* `bucketIDBitSize` is not validated: values below 0 or above 32 are accepted by the constructors and panic on
  use (C03, C12, C45).
* Entries are not authenticated beyond the key tag, although described as a key-committing AEAD (C10), and re-inserting a
  credential with other metadata reuses the pad (C11).
* Version checks compare modulo 65536 (C18). Bucket identifiers are matched as raw strings, so
  upper-case hex names a different, empty bucket (C19).
* The wire format fixes the element length of the default suite (C21).
* On 32-bit platforms a hostile response can make `Finalize` loop forever or panic (C23).
* `handleEvaluate` goes on after a JSON error and appends the answer for a zero or partly filled request (C51).
* `-username-variant false` switches the username entries on and makes the server ignore all flags after it; `-num-variants 010`
  is eight (C73).
* A line of 65536 bytes or more ends the import, and the client's queries, without any message (C56).
* `-target http://host:port/` (with the slash) finds the configuration but cannot check any credential (C78).
* A server's configuration can crash the client (bucket size 33) and can make it show up to 32 bits of the hash of each
  username; neither is checked (C79).
* A request with an invalid bucket identifier, and an insert with metadata that is too long, are refused only after the OPRF
  evaluation; how long `Finalize` takes depends on where in the bucket the credential is (C80).
* The server logs a failed line only together with the next line that succeeds: failures after the last success, and an import in which
  every line fails, leave no trace in the log (C81).
* A client with another number of bucket bits or another slow hash than the server is told that nothing is in a breach, without any
  error; only a difference in the version is noticed (C82).
* A larger `-num-variants` can make a breached password be reported as merely similar to a breached one: the first line of a user
  that says anything decides (C83).
* Everybody who fetches a bucket sees how long the metadata of each entry is, which entries are of the same credential, and for these
  the XOR of the metadata; nothing else if the masks are independent (C84).
* A read error in the credentials file is silent: the server serves the lines before it, and the line that was cut as if it were whole
  (C86_cut, C86_cut_example).
* A reply that reaches another request than its own (mixed up, cached, replayed) silently gives "not in breach" (C89).
* A bucket that was cut within an entry silently hides what is appended after it (C88_cut_false).
* A store served under another number of bucket bits than it was filled with is silently as good as empty (C90_not_merged); merged by leading bits it is not (C90_merged).
* After a change of the key alone a store silently reports every password as not in a breach (C92_other_key_silent); filled once more under the new key it serves both (C92_rotation).
* One private key below the order, which the constructor takes, makes every request and every entry an error (C91_keys).
* The server answers the one-byte encoding of infinity, with that byte, which the client's reader of replies does not take (C91_reply).
* A caller that `Put`s one slice under two keys can see appends cross over (C47_hazard); the programs never do.

## Testing the theorems against wrong programs

`tools/seed.py` applies the edits of `seeded/mutants.py` to a scratch copy one at a time, rebuilds, and logs which theorems
fail in `seeded/LOG.jsonl`.
`tools/automut.py` makes random one-token edits of the definitions; `tools/log_automut.py` appends the results to the same log,
with the review of each edit that survived (`seeded/automut_review.json`).

## Testing the model against the repository's tests

`Props/RepoTests.lean` and `Props/QuickStart.lean` run the repository's own unit tests and the quick start of its README on the
model, evaluated by the kernel (with the real SHA-256, HMAC, HKDF, Murmur3, rule list, JSON, scanner and flag parsing; the group and
scrypt are stand-ins). They support the model's fidelity only; no claim rests on them.

## Testing the model against a transliteration of the code

`tools/difftest.py` runs the model's executable definitions (mutator and its rules, bucket identifiers, entries, serialization,
JSON reading and writing of requests and configurations, the client's output, binary responses, scanner, base64, hex, UTF-8,
`strconv`, `flag`) on random inputs against Python functions written from the Go sources and, where Python's library implements the
same standard, against that library. About 100 000 cases were compared without a difference. This too is a test of the model's
fidelity, and no claim rests on it.
