import Verif.Props.Finalize32
import Verif.Props.Insert
import Verif.Props.Memory
import Verif.Props.ServerConc
/-!
# Sharper forms of several properties
-/
namespace Migp.Props
open Migp.Spec

variable {E : Ext}

/-! ## C03, C04, C17: buckets -/

/-- C03: the same for a server. -/
theorem C03_server_bucketID (cfg : ServerConfig) (s : Server) (h : NewServer E cfg = .ok s) (u : Bytes) :
    (u.length ≤ 65536 → 0 ≤ cfg.bucketIDBitSize → cfg.bucketIDBitSize ≤ 32 →
      ∃ id, s.bucketID E u = .ok id ∧ id.toNat = bucketNumber E cfg.bucketIDBitSize.toNat u ∧
        id.toNat < 2 ^ cfg.bucketIDBitSize.toNat) ∧
    ((s.bucketID E u).IsPanic ↔ cfg.bucketIDBitSize < 0 ∨ 32 < cfg.bucketIDBitSize ∨ 65536 < u.length) ∧
    ¬ (s.bucketID E u).IsErr := by
  obtain ⟨c, hc⟩ := (C12_newClient_iff cfg.toConfig).mpr (by
    obtain ⟨h1, h2, h3, h4, -⟩ := (C12_newServer_iff cfg).mp ⟨s, h⟩
    exact ⟨h1, h2, h3, h4⟩)
  rw [← C14_same_bucket cfg c s hc h u]
  exact ⟨C03_client_bucketID cfg.toConfig c hc u, C03_client_bucketID_panics_iff cfg.toConfig c hc u⟩

/-- C03: two clients whose configurations differ at least in the bit size: the bucket of the smaller size is the
beginning of that of the larger one, so usernames that share a bucket keep doing so when the size is reduced. -/
theorem C03_client_prefix (small large : Config) (cs cl : Client) (hs : NewClient E small = .ok cs)
    (hl : NewClient E large = .ok cl) (h0 : 0 ≤ small.bucketIDBitSize)
    (hle : small.bucketIDBitSize ≤ large.bucketIDBitSize) (h32 : large.bucketIDBitSize ≤ 32) (u : Bytes)
    (hu : u.length ≤ 65536) :
    (∃ a b, cs.bucketID E u = .ok a ∧ cl.bucketID E u = .ok b ∧
      a.toNat = b.toNat / 2 ^ (large.bucketIDBitSize - small.bucketIDBitSize).toNat) ∧
    ∀ v : Bytes, v.length ≤ 65536 → cl.bucketID E u = cl.bucketID E v → cs.bucketID E u = cs.bucketID E v := by
  have key : ∀ u : Bytes, u.length ≤ 65536 → ∃ a b, cs.bucketID E u = .ok a ∧ cl.bucketID E u = .ok b ∧
      a.toNat = b.toNat / 2 ^ (large.bucketIDBitSize - small.bucketIDBitSize).toNat := by
    intro u hu
    obtain ⟨a, ha, hna, -⟩ := C03_client_bucketID small cs hs u hu h0 (by omega)
    obtain ⟨b, hb, hnb, -⟩ := C03_client_bucketID large cl hl u hu (by omega) h32
    refine ⟨a, b, ha, hb, ?_⟩
    rw [hna, hnb]
    obtain ⟨x, y, hx, hy, hxy⟩ := C03_prefix (E.sha256 (bucketPreimage u)) (by rw [E.sha256_len]; omega) _ _ h0 hle h32
    obtain ⟨x', hx', hnx, -⟩ := C03_top_bits (E.sha256 (bucketPreimage u)) (by rw [E.sha256_len]; omega) _ h0 (by omega)
    obtain ⟨y', hy', hny, -⟩ := C03_top_bits (E.sha256 (bucketPreimage u)) (by rw [E.sha256_len]; omega)
      large.bucketIDBitSize (by omega) h32
    cases Res.ok.inj (hx.symm.trans hx')
    cases Res.ok.inj (hy.symm.trans hy')
    unfold bucketNumber
    rw [← hnx, ← hny, hxy]
  refine ⟨key u hu, fun v hv he => ?_⟩
  obtain ⟨a, b, h1, h2, h3⟩ := key u hu
  obtain ⟨a', b', h1', h2', h3'⟩ := key v hv
  rw [h2, h2'] at he
  cases Res.ok.inj he
  rw [h1, h1', UInt32.toNat_inj.mp (h3.trans h3'.symm)]

/-- C17: what `HandleRequest` does depends on the store only in what it holds under the request's bucket ID, and not at
all for a request that is refused: a store that panics or fails is not even asked. -/
theorem C17_store (s : Server) (req : ClientRequest) (kv kv' : Getter) :
    (kv req.bucketID = kv' req.bucketID → s.handleRequest req kv = s.handleRequest req kv') ∧
    (¬ (req.version.toNat % 65536 = s.version.toNat ∧ Spec.tweak s.suite s.privateKey ≠ 0 ∧
        (s.suite.de req.blindElement).isSome ∧ IsHexString req.bucketID) →
      s.handleRequest req kv = s.handleRequest req kv' ∧ (s.handleRequest req kv).IsErr) := by
  refine ⟨fun h => ?_, fun h => ?_⟩
  · unfold Server.handleRequest
    rw [h]
  · obtain ⟨a1, a2, a3, a4, -⟩ := C17_errors s req kv
    obtain ⟨b1, b2, b3, b4, -⟩ := C17_errors s req kv'
    by_cases h1 : req.version.toNat % 65536 = s.version.toNat
    · by_cases h2 : Spec.tweak s.suite s.privateKey = 0
      · rw [a2 h1 h2, b2 h1 h2]; exact ⟨rfl, _, rfl⟩
      · by_cases h3 : s.suite.de req.blindElement = none
        · rw [a3 h1 h2 h3, b3 h1 h2 h3]; exact ⟨rfl, _, rfl⟩
        · have h3' : (s.suite.de req.blindElement).isSome := Option.isSome_iff_ne_none.mpr h3
          have h4 : ¬ IsHexString req.bucketID := fun h4 => h ⟨h1, h2, h3', h4⟩
          rw [a4 h1 h2 h3' h4, b4 h1 h2 h3' h4]; exact ⟨rfl, _, rfl⟩
    · rw [a1 h1, b1 h1]; exact ⟨rfl, _, rfl⟩

/-- C04: the bucket IDs that `BucketIDToHex` writes pass the check of `HandleRequest`: with a right version, a valid
element and a usable key, such a request is answered, from the bucket under this very string. -/
theorem C04_accepted (s : Server) (ht : Spec.tweak s.suite s.privateKey ≠ 0) (kv : KV) (id : UInt32) (req : ClientRequest)
    (hid : req.bucketID = BucketIDToHex id) (hv : req.version.toNat % 65536 = s.version.toNat)
    (he : (s.suite.de req.blindElement).isSome) :
    ∃ resp, s.handleRequest req kv.get = .ok resp ∧ kv.get (BucketIDToHex id) = .ok resp.bucketContents := by
  obtain ⟨g, hg⟩ := Option.isSome_iff_exists.mp he
  have hx : IsHexString req.bucketID := by
    obtain ⟨-, -, -, a, b, c, d, h, -⟩ := C04_canonical id
    rw [← hexDecode_isSome_iff, hid, h]; rfl
  refine ⟨_, (C17_ok_iff s req kv.get _).mpr ⟨hv, ht, hx, g, kv.store req.bucketID, hg, rfl, rfl⟩, ?_⟩
  rw [← hid]; rfl

/-! ## C20: errors of `UnmarshalBinary` -/

/-- C20: which error is reported, by the number of bytes. -/
theorem C20_errors (data : Bytes) :
    (data.length = 0 → ServerResponse.unmarshalBinary data = .err .eof) ∧
    (1 ≤ data.length → data.length ≤ 3 → ServerResponse.unmarshalBinary data = .err .unexpectedEOF) ∧
    (data.length = 4 → ServerResponse.unmarshalBinary data = .err .eof) ∧
    (5 ≤ data.length → data.length ≤ 36 → ServerResponse.unmarshalBinary data = .err .elementTooShort) := by
  match data with
  | [] => simp [ServerResponse.unmarshalBinary, readUint32]
  | [_] => simp [ServerResponse.unmarshalBinary, readUint32]
  | [_, _] => simp [ServerResponse.unmarshalBinary, readUint32]
  | [_, _, _] => simp [ServerResponse.unmarshalBinary, readUint32]
  | [a, b, c, d] => simp [ServerResponse.unmarshalBinary, readUint32, beUint32, bufferRead, defaultElementLength]
  | a :: b :: c :: d :: x :: rest =>
    refine ⟨fun h => by simp at h, fun _ h => by simp at h; omega, fun h => by simp at h, fun _ h => ?_⟩
    simp only [List.length_cons] at h
    have hm : min 33 (rest.length + 1) ≠ 33 := by omega
    simp [ServerResponse.unmarshalBinary, readUint32, beUint32, bufferRead, defaultElementLength, hm]

/-! ## C22, C23: `Finalize` as a whole, with machine integers -/

/-- C22: with 64-bit integers `Finalize` ends after at most `len/25 + 1` iterations, and it returns what the model on
unbounded integers returns. -/
theorem C22_finalize_64 (ctx : ClientRequestContext) (resp : ServerResponse)
    (hc : resp.bucketContents.length < 2 ^ 62) (n : Nat) (hn : resp.bucketContents.length / 25 + 1 ≤ n) :
    ctx.finalizeRun 64 E resp n = some (ctx.finalize E resp) := by
  unfold ClientRequestContext.finalizeRun ClientRequestContext.finalize
  split
  · rfl
  · cases ctx.client.suite.clientFinalize ctx.input ctx.blind resp.evaluatedElement OprfInfo with
    | ok secret =>
      dsimp only
      exact finalizeRun64 E ctx.client.bucketEncryptor secret resp.bucketContents hc n 0 (by omega) (by omega)
    | err e => rfl
    | panic p => rfl

/-- C23: with 32-bit integers a server can, with a reply of 25 bytes of bucket for every client and every request, make
`Finalize` run for ever; and it can make it panic after one entry. (Any version and element that the client accepts
will do.) -/
theorem C23_finalize_32 (ctx : ClientRequestContext) (version : UInt32) (element : Bytes)
    (hv : version.toNat % 65536 = ctx.client.version.toNat) (he : (ctx.client.suite.de element).isSome) :
    (∃ b : Bytes, b.length = 25 ∧ ∀ n, ctx.finalizeRun 32 E ⟨version, element, b⟩ n = none) ∧
    ∃ b : Bytes, b.length = 25 ∧ ctx.finalizeRun 32 E ⟨version, element, b⟩ 2 = some (.panic .bounds) := by
  obtain ⟨z, hz⟩ := Option.isSome_iff_exists.mp he
  have hver : UInt16.ofNat version.toNat = ctx.client.version := by
    apply UInt16.toNat_inj.mp
    rw [UInt16.toNat_ofNat']
    exact hv
  have key : ∀ b n, ctx.finalizeRun 32 E ⟨version, element, b⟩ n = finalizeRun 32 E ctx.client.bucketEncryptor
      (ctx.client.suite.finalizeHash ctx.input OprfInfo (ctx.client.suite.ser (ctx.blind⁻¹ * z))) b n 0 := by
    intro b n
    unfold ClientRequestContext.finalizeRun Suite.clientFinalize
    dsimp only
    rw [if_neg (by rw [hver]; simp), hz]
  simp only [key]
  exact ⟨C23_hangs E _ _, C23_panics E _ _⟩

/-! ## C25: truncation -/

/-- C25: what is left of a bucket of well-formed entries when it is cut off after `n` bytes: the first `k` entries are
those that are still complete, and the result is that of the first of them that matches; if none does, it is an error
if at least 25 bytes follow them, and `NotInBreach` otherwise. -/
theorem C25_truncation_exact (enc : BucketEncryptor) (secret : Bytes) (es : List RawEntry) (h : ∀ e ∈ es, e.WF) (n : Nat)
    (hn : n ≤ (bucket es).length) :
    ∃ k ≤ es.length, (bucket (es.take k)).length ≤ n ∧ (∀ j ≤ es.length, (bucket (es.take j)).length ≤ n → j ≤ k) ∧
      finalizeLoop E enc secret ((bucket es).take n) 0 =
        match firstMatch E.sha256 secret (es.take k) with
        | some e => openResult E secret e
        | none => if (bucket (es.take k)).length + 25 ≤ n then .ret NotInBreach none (some .bucketParse)
          else .ret NotInBreach none none := by
  induction es generalizing n with
  | nil =>
    have : n = 0 := by simpa [bucket] using hn
    subst this
    refine ⟨0, by simp, by simp [bucket], by simp, ?_⟩
    rw [finalizeLoop_end E enc secret _ 0 (by simp)]
    simp [firstMatch, bucket]
  | cons e es ih =>
    have hwf := h e (by simp)
    have hb : bucket (e :: es) = e.bytes ++ bucket es := by simp [bucket]
    have hlen : e.bytes.length = 25 + e.body.length := by
      rw [rawEntry_bytes e hwf]; simp [hwf.1]; omega
    have ht : ∀ k, bucket (List.take (k + 1) (e :: es)) = e.bytes ++ bucket (es.take k) := by
      intro k; simp [bucket]
    by_cases hle : e.bytes.length ≤ n
    · obtain ⟨k, hk, hkn, hkm, hr⟩ := ih (fun x hx => h x (by simp [hx])) (n - e.bytes.length)
        (by rw [hb, List.length_append] at hn; omega)
      refine ⟨k + 1, by simpa using hk, by rw [ht, List.length_append]; omega, fun j hj hjn => ?_, ?_⟩
      · cases j with
        | zero => omega
        | succ j =>
          rw [ht, List.length_append] at hjn
          have := hkm j (by simpa using hj) (by omega)
          omega
      · rw [hb, List.take_append, List.take_of_length_le hle, finalizeLoop_entry E enc secret e hwf, ht,
          List.length_append, List.take_succ_cons]
        by_cases htag : e.tag = keyTag E.sha256 secret
        · rw [if_pos htag]
          have : firstMatch E.sha256 secret (e :: es.take k) = some e := by
            simp only [firstMatch]
            rw [List.find?_cons_of_pos (by simpa using htag)]
          rw [this]
        · rw [if_neg htag, hr]
          have : firstMatch E.sha256 secret (e :: es.take k) = firstMatch E.sha256 secret (es.take k) := by
            simp only [firstMatch]
            rw [List.find?_cons_of_neg (by simpa using htag)]
          rw [this]
          have hi : (e.bytes.length + (bucket (es.take k)).length + 25 ≤ n) =
              ((bucket (es.take k)).length + 25 ≤ n - e.bytes.length) := by
            apply propext; omega
          simp only [hi]
    · refine ⟨0, by simp, by simp [bucket], fun j hj hjn => ?_, ?_⟩
      · cases j with
        | zero => omega
        | succ j => rw [ht, List.length_append] at hjn; omega
      · rw [hb, List.take_append_of_le_length (by omega), List.take_zero]
        have hf : firstMatch E.sha256 secret [] = none := rfl
        rw [hf]
        dsimp only
        have hz : (bucket ([] : List RawEntry)).length = 0 := rfl
        rw [hz]
        by_cases h25 : n < 25
        · rw [if_neg (by omega)]
          exact finalizeLoop_end E enc secret _ 0 (by simp; omega)
        · rw [if_pos (by omega)]
          have hcut : e.bytes.take n = e.tag ++ ([e.flag] ++ (be32 (UInt32.ofNat e.body.length) ++
              e.body.take (n - 25))) := by
            have : e.bytes = (e.tag ++ ([e.flag] ++ be32 (UInt32.ofNat e.body.length))) ++ e.body := by
              rw [rawEntry_bytes e hwf]; simp
            have hl : (e.tag ++ ([e.flag] ++ be32 (UInt32.ofNat e.body.length))).length = 25 := by
              simp [hwf.1]
            rw [this, List.take_append, List.take_of_length_le (by omega), hl]
            simp
          have := finalizeLoop_step E enc secret [] e.tag e.flag (UInt32.ofNat e.body.length)
            (e.body.take (n - 25)) hwf.1
          simp only [List.nil_append, List.length_nil] at this
          rw [hcut]
          simp only [List.cons_append, List.nil_append] at this ⊢
          rw [this, if_pos]
          rw [UInt32.toNat_ofNat', Nat.mod_eq_of_lt hwf.2, List.length_take]
          omega

/-- Two entries of 26 bytes, cut off after 51: the first one is complete, of the second one the body is missing. A client
with neither tag is told of the error. -/
example (secret : Bytes) (hno : keyTag E.sha256 secret ≠ List.replicate 20 7) : ∃ es : List RawEntry, es.length = 2 ∧
    finalizeLoop E .hkdfSHA256 secret ((bucket es).take 51) 0 = .ret NotInBreach none (some .bucketParse) := by
  have hw : ∀ e ∈ [(⟨List.replicate 20 7, 1, [5]⟩ : RawEntry), ⟨List.replicate 20 8, 1, [6]⟩], e.WF := by
    intro e he
    rcases List.mem_cons.mp he with rfl | he
    · exact ⟨by decide, by decide⟩
    · rcases List.mem_cons.mp he with rfl | he
      · exact ⟨by decide, by decide⟩
      · cases he
  refine ⟨[⟨List.replicate 20 7, 1, [5]⟩, ⟨List.replicate 20 8, 1, [6]⟩], rfl, ?_⟩
  obtain ⟨k, hk, hkn, hkm, hr⟩ := C25_truncation_exact (E := E) .hkdfSHA256 secret _ hw 51 (by decide)
  have h1 := hkm 1 (by decide) (by decide)
  have h2 : k ≤ 2 := hk
  obtain rfl : k = 1 := by
    rcases Nat.lt_or_ge k 2 with h | h
    · omega
    · obtain rfl : k = 2 := by omega
      revert hkn; decide
  rw [hr]
  have hf : firstMatch E.sha256 secret (List.take 1 [(⟨List.replicate 20 7, 1, [5]⟩ : RawEntry), ⟨List.replicate 20 8, 1, [6]⟩]) =
      none := by
    simp only [firstMatch, List.take_succ_cons, List.take_zero]
    rw [List.find?_cons_of_neg (by simpa using fun h => hno h.symm)]
    rfl
  rw [hf]
  dsimp only
  rw [if_pos (by decide)]

/-! ## C44: errors of `insert` -/

/-- C44: an `insert` that does not panic returns an error if and only if the metadata is longer than 8160 bytes or the key
cancels the info scalar, whatever the credential and the number of variants; and then it has stored nothing. -/
theorem C44_error_iff {cfg : ServerConfig} {s : Server} (hs : NewServer E cfg = .ok s) (r : Record) (kv : KV)
    (hp : ¬ (insertRecord E s r kv).2.IsPanic) :
    ((insertRecord E s r kv).2.IsErr ↔ 8160 < r.metadata.length ∨ Spec.tweak s.suite s.privateKey = 0) ∧
    ((insertRecord E s r kv).2.IsErr → (insertRecord E s r kv).1 = kv) := by
  obtain ⟨h1, h2⟩ := C45_outcomes hs r kv
  refine ⟨?_, fun ⟨e, he⟩ => C44_error_stores_nothing hs r kv _ e (Prod.ext rfl he)⟩
  rw [h2]
  refine ⟨fun h => h.2, fun h => ⟨?_, h⟩⟩
  have hn : ¬ (cfg.bucketIDBitSize < 0 ∨ 32 < cfg.bucketIDBitSize ∨ 65536 < r.username.length ∨
      65536 < r.password.length) := fun hx => hp (h1.mpr (Or.inl hx))
  omega

/-! ## C71: outcomes other than a reply -/

variable {ι : Type} [DecidableEq ι]

/-- C71: however a goroutine that answers a request ends, also in an error, it is the way that the library's answer on
the store at one moment after its beginning and before its end goes. -/
theorem C71_outcome (E : Ext) (s : Server) (h : Heap) (jobs : ι → JobH) (jobsV : ι → JobV) (run : Nat → Srv ι)
    (_r : IsRun E s h jobs run) (logs : Nat → List (LogEntry ι)) (hl : LogsOf run logs)
    (hx : ∀ k, Explains E s jobsV (logs k) (run k)) (t : ι) (request : ClientRequest) (ht : jobsV t = .reply request)
    (k : Nat) (out : Res JobOut) (hd : (run k).code t = .done out)
    (j : Nat) (hjk : j ≤ k) (hb : ∀ i ≤ j, (run i).code t = (run 0).code t) :
    ∃ log, logs j <+: log ∧ log <+: logs k ∧ ∀ kv : Getter,
      (∀ id b, Spec.Holds id (log.map fun e => e.2.1) b → kv id = .ok b) →
        match replyOf s kv request with
        | .ok body => out = .ok (.replied body)
        | .err e => out = .err e
        | .panic p => out = .panic p := by
  obtain ⟨n, rfl⟩ := Nat.exists_eq_add_of_le hjk
  have he := (hx (j + n)).ends t _ hd
  rw [ht] at he
  have key : ∀ x : Res Bytes, out = (x >>= fun body => .ok (.replied body)) →
      match x with
      | .ok body => out = .ok (.replied body)
      | .err e => out = .err e
      | .panic p => out = .panic p := by
    intro x e
    cases x <;> exact e
  rcases he with ⟨b, htr, e⟩ | ⟨-, e⟩
  · obtain ⟨p, q, hp, hjp⟩ := log_split (hl.prefix j n) (hl.still j hb) htr
    refine ⟨p, hjp, ⟨_, hp.symm⟩, fun kv hkv => ?_⟩
    have leg := (hx (j + n)).legal (p.map Prod.snd) (.get request.bucketID) b (q.map Prod.snd) (by rw [hp]; simp)
    dsimp only at leg
    rw [List.map_map] at leg
    have hk : kv request.bucketID = .ok b := hkv _ _ leg
    have he' := key _ e
    have hsame : replyOf s (fun _ => .ok b) request = replyOf s kv request := by
      unfold replyOf
      rw [(C17_store s request (fun _ => .ok b) kv).1 hk.symm]
    rw [hsame] at he'
    exact he'
  · exact ⟨logs j, List.prefix_rfl, hl.prefix j n, fun kv _ => key _ (e kv)⟩

end Migp.Props
