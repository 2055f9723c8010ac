import Verif.Model.Json
import Verif.Lemmas.JsonObject
import Verif.Lemmas.JsonString
/-!
# C53: JSON round trips
-/
namespace Migp.Props
open Migp.Json

theorem setMembers_cons {T : Type} {fields : List (JField T)} {stale : Nat → Nat → UInt8} {k : GoString}
    {v : JVal} {ms : List (GoString × JVal)} {t t' : T} {f : JField T} (hf : lookupField fields k = some f)
    (hs : f.set (stale ms.length) v t = (t', false)) :
    setMembers fields stale ((k, v) :: ms) t = setMembers fields stale ms t' := by
  rw [setMembers, hf]
  dsimp only
  rw [hs]
  simp

theorem setU16_natDec (n : UInt16) (old : UInt16) : setU16 (.num (natDec n.toNat)) old = (n, false) := by
  have := n.toNat_lt
  unfold setU16 setUint
  dsimp only
  rw [parseUint_natDec (by omega)]
  simp

theorem setU32_natDec (n : UInt32) (old : UInt32) : setU32 (.num (natDec n.toNat)) old = (n, false) := by
  have := n.toNat_lt
  unfold setU32 setUint
  dsimp only
  rw [parseUint_natDec (by omega)]
  simp

theorem setInt_intDec {n : Int} (h : IsGoInt n) (old : Int) : setInt (.num (intDec n)) old = (n, false) := by
  unfold setInt
  dsimp only
  rw [parseInt_intDec h.1 h.2]

theorem setBytes_b64 (stale : Nat → UInt8) (b old : Bytes) :
    setBytes stale (.str (b64Encode b)) old = (b, false) := by
  unfold setBytes
  dsimp only
  rw [b64Decode_encode]

/-- The members of an encoded request. -/
def requestMembers (r : ClientRequest) : List Member :=
  [⟨ascii "version", natDec r.version.toNat, .num (natDec r.version.toNat)⟩,
   ⟨ascii "bucketID", quote r.bucketID, .str (toValidUTF8 r.bucketID)⟩,
   ⟨ascii "blindElement", encBytes r.blindElement, .str (b64Encode r.blindElement)⟩]

theorem requestMembers_ok (r : ClientRequest) :
    ∀ m ∈ requestMembers r, PlainName m.name ∧ Reads m.text m.val := by
  intro m hm
  simp only [requestMembers, List.mem_cons, List.not_mem_nil, or_false] at hm
  rcases hm with rfl | rfl | rfl
  · exact ⟨by dsimp only; decide, Reads.nat _⟩
  · exact ⟨by dsimp only; decide, Reads.quote _⟩
  · exact ⟨by dsimp only; decide, Reads.bytes _⟩

theorem setMembers_request (r r0 : ClientRequest) (stale : Nat → Nat → UInt8)
    (rest : List (GoString × JVal)) :
    setMembers requestFields stale ((requestMembers r).map (fun m => (m.name, m.val)) ++ rest) r0 =
      setMembers requestFields stale rest { r with bucketID := toValidUTF8 r.bucketID } := by
  have h1 := setU32_natDec r.version r0.version
  simp only [requestMembers, List.map_cons, List.map_nil, List.cons_append, List.nil_append]
  rw [setMembers_cons (f := requestFields[0]) rfl (t' := { r0 with version := r.version })
    (by show (({ r0 with version := (setU32 _ r0.version).1 } : ClientRequest), (setU32 _ r0.version).2) = _
        rw [h1])]
  rw [setMembers_cons (f := requestFields[1]) rfl rfl]
  rw [setMembers_cons (f := requestFields[2]) rfl
    (t' := { r with bucketID := toValidUTF8 r.bucketID })
    (by show (({ r0 with version := r.version, bucketID := toValidUTF8 r.bucketID,
                         blindElement := (setBytes _ _ _).1 } : ClientRequest), (setBytes _ _ _).2) = _
        rw [setBytes_b64])]

/-- C53: decoding an encoded request, into any struct and however slices are allocated, gives the request
back without error; in the bucket ID, bytes that are not UTF-8 have been replaced by U+FFFD. -/
theorem C53_request (r r0 : ClientRequest) (stale : Nat → Nat → UInt8) :
    ClientRequest.unmarshalJSON stale r.marshalJSON r0 =
      ({ r with bucketID := toValidUTF8 r.bucketID }, false) := by
  have hp := parse_object (requestMembers r) (by simp [requestMembers]) (requestMembers_ok r)
  have hs := setMembers_request r r0 stale []
  rw [List.append_nil] at hs
  unfold ClientRequest.unmarshalJSON unmarshalStruct
  have : r.marshalJSON = encObject ((requestMembers r).map (fun m : Member => (m.name, m.text))) := rfl
  rw [this, hp]
  exact hs

/-- C53: which bytes are replaced: those that are not part of the UTF-8 encoding of a character. -/
theorem C53_replacement (s t : Bytes) : toValidUTF8 s = t ↔ Spec.Replaced s t := (replaced_iff s t).symm

/-- C53: a request round-trips exactly iff its bucket ID is UTF-8. -/
theorem C53_request_exact (r r0 : ClientRequest) (stale : Nat → Nat → UInt8) :
    ClientRequest.unmarshalJSON stale r.marshalJSON r0 = (r, false) ↔ Spec.IsUtf8 r.bucketID := by
  rw [isUtf8_iff, C53_request, ← toValidUTF8_eq_iff, Prod.mk.injEq]
  constructor
  · intro h; exact congrArg ClientRequest.bucketID h.1
  · intro h; rw [h]; exact ⟨rfl, rfl⟩

theorem validUTF8_ascii {s : GoString} (h : ∀ c ∈ s, c.toNat < 128) : validUTF8 s = true := by
  unfold validUTF8
  rw [List.all_eq_true]
  intro r hr
  obtain ⟨h1, h2⟩ := runes_spec s
  split
  · rename_i b
    refine decide_eq_true (h b ?_)
    rw [← h1]
    exact List.mem_flatten.mpr ⟨[b], hr, List.mem_singleton.mpr rfl⟩
  · rfl

theorem hexDecode_ascii : (s : GoString) → (b : Bytes) → hexDecode s = some b → ∀ c ∈ s, c.toNat < 128
  | [], _, _ => fun c hc => by cases hc
  | [_], _, h => by cases h
  | x :: y :: rest, b, h => by
    rw [hexDecode] at h
    have hx : ∀ c n, fromHexChar c = some n → c.toNat < 128 := by
      intro c n hc
      unfold fromHexChar at hc
      split at hc
      · omega
      split at hc
      · omega
      split at hc
      · omega
      · cases hc
    cases ha : fromHexChar x with
    | none => rw [ha] at h; cases h
    | some x' =>
      cases hb : fromHexChar y with
      | none => rw [ha, hb] at h; cases h
      | some y' =>
        cases hr : hexDecode rest with
        | none => rw [ha, hb, hr] at h; cases h
        | some r =>
          intro c hc
          rcases List.mem_cons.mp hc with rfl | hc
          · exact hx _ _ ha
          rcases List.mem_cons.mp hc with rfl | hc
          · exact hx _ _ hb
          · exact hexDecode_ascii rest r hr c hc

/-- C53: in particular every request whose bucket ID is hexadecimal (the only requests a server
answers) round-trips. -/
theorem C53_request_hex (r r0 : ClientRequest) (stale : Nat → Nat → UInt8) (b : Bytes)
    (h : hexDecode r.bucketID = some b) :
    ClientRequest.unmarshalJSON stale r.marshalJSON r0 = (r, false) :=
  (C53_request_exact r r0 stale).mpr ((isUtf8_iff _).mpr <| validUTF8_ascii (hexDecode_ascii _ _ h))

/-- C53: a bucket ID that is not UTF-8 does not round-trip. -/
theorem C53_request_utf8_lost : ∃ r : ClientRequest, ∀ stale r0,
    (ClientRequest.unmarshalJSON stale r.marshalJSON r0).1 ≠ r ∧
    (ClientRequest.unmarshalJSON stale r.marshalJSON r0).2 = false := by
  refine ⟨⟨1, [0xFF], [2]⟩, fun stale r0 => ?_⟩
  rw [C53_request]
  exact ⟨by decide, rfl⟩

/-- A concrete request. -/
example : (⟨1, ascii "00f0a", [0, 255, 128, 7]⟩ : ClientRequest).marshalJSON =
    ascii "{\"version\":1,\"bucketID\":\"00f0a\",\"blindElement\":\"AP+ABw==\"}" := by decide +kernel

/-- The members of an encoded configuration. -/
def configMembers (c : Config) : List Member :=
  [⟨ascii "version", natDec c.version.toNat, .num (natDec c.version.toNat)⟩,
   ⟨ascii "bucketIDBitSize", intDec c.bucketIDBitSize, .num (intDec c.bucketIDBitSize)⟩,
   ⟨ascii "bucketHasher", natDec c.bucketHasherID.toNat, .num (natDec c.bucketHasherID.toNat)⟩,
   ⟨ascii "slowHasher", natDec c.slowHasherID.toNat, .num (natDec c.slowHasherID.toNat)⟩,
   ⟨ascii "bucketEncryptor", natDec c.bucketEncryptorID.toNat, .num (natDec c.bucketEncryptorID.toNat)⟩,
   ⟨ascii "oprfSuite", natDec c.oprfSuite.toNat, .num (natDec c.oprfSuite.toNat)⟩]

theorem configMembers_ok (c : Config) : ∀ m ∈ configMembers c, PlainName m.name ∧ Reads m.text m.val := by
  intro m hm
  simp only [configMembers, List.mem_cons, List.not_mem_nil, or_false] at hm
  rcases hm with rfl | rfl | rfl | rfl | rfl | rfl
  · exact ⟨by dsimp only; decide, Reads.nat _⟩
  · exact ⟨by dsimp only; decide, Reads.int _⟩
  · exact ⟨by dsimp only; decide, Reads.nat _⟩
  · exact ⟨by dsimp only; decide, Reads.nat _⟩
  · exact ⟨by dsimp only; decide, Reads.nat _⟩
  · exact ⟨by dsimp only; decide, Reads.nat _⟩

theorem setMembers_config (c c0 : Config) (hc : IsGoInt c.bucketIDBitSize) (stale : Nat → Nat → UInt8) :
    setMembers (configFields id (fun _ c => c)) stale
      ((configMembers c).map (fun m => (m.name, m.val))) c0 = (c, false) := by
  simp only [configMembers, List.map_cons, List.map_nil]
  rw [setMembers_cons (f := (configFields id (fun _ c => c))[0]) rfl
    (t' := { c0 with version := c.version })
    (by show (({ c0 with version := (setU16 _ _).1 } : Config), (setU16 _ _).2) = _
        rw [setU16_natDec])]
  rw [setMembers_cons (f := (configFields id (fun _ c => c))[1]) rfl
    (t' := { c0 with version := c.version, bucketIDBitSize := c.bucketIDBitSize })
    (by show (({ c0 with version := c.version, bucketIDBitSize := (setInt _ _).1 } : Config),
          (setInt _ _).2) = _
        rw [setInt_intDec hc])]
  rw [setMembers_cons (f := (configFields id (fun _ c => c))[2]) rfl
    (t' := { c0 with version := c.version, bucketIDBitSize := c.bucketIDBitSize,
                     bucketHasherID := c.bucketHasherID })
    (by show (({ c0 with version := c.version, bucketIDBitSize := c.bucketIDBitSize,
                         bucketHasherID := (setU16 _ _).1 } : Config), (setU16 _ _).2) = _
        rw [setU16_natDec])]
  rw [setMembers_cons (f := (configFields id (fun _ c => c))[3]) rfl
    (t' := { c0 with version := c.version, bucketIDBitSize := c.bucketIDBitSize,
                     bucketHasherID := c.bucketHasherID, slowHasherID := c.slowHasherID })
    (by show (({ c0 with version := c.version, bucketIDBitSize := c.bucketIDBitSize,
                         bucketHasherID := c.bucketHasherID, slowHasherID := (setU16 _ _).1 } : Config),
          (setU16 _ _).2) = _
        rw [setU16_natDec])]
  rw [setMembers_cons (f := (configFields id (fun _ c => c))[4]) rfl
    (t' := { c with oprfSuite := c0.oprfSuite })
    (by show (({ c with bucketEncryptorID := (setU16 _ _).1, oprfSuite := c0.oprfSuite } : Config),
          (setU16 _ _).2) = _
        rw [setU16_natDec])]
  rw [setMembers_cons (f := (configFields id (fun _ c => c))[5]) rfl
    (t' := c)
    (by show (({ c with oprfSuite := (setU16 _ _).1 } : Config), (setU16 _ _).2) = _
        rw [setU16_natDec])]
  rfl

/-- C53: decoding an encoded client configuration gives it back, whether it is read from a file
(`Unmarshal`) or from a stream (`Decoder`, anything may follow), for every bit size a Go `int` can hold. -/
theorem C53_config (c c0 : Config) (hc : IsGoInt c.bucketIDBitSize) (stale : Nat → Nat → UInt8) :
    Config.unmarshalJSON stale c.marshalJSON c0 = (c, false) ∧
    ∀ extra, Config.decodeJSON stale (c.marshalJSON ++ extra) c0 = (c, false) := by
  have hne : configMembers c ≠ [] := by simp [configMembers]
  have hm : c.marshalJSON = encObject ((configMembers c).map (fun m : Member => (m.name, m.text))) := rfl
  have hs := setMembers_config c c0 hc stale
  constructor
  · unfold Config.unmarshalJSON unmarshalStruct
    rw [hm, parse_object _ hne (configMembers_ok c)]
    exact hs
  · intro extra
    unfold Config.decodeJSON decodeStruct
    rw [hm, parseFirst_object _ hne (configMembers_ok c)]
    exact hs

example : DefaultConfig.marshalJSON = ascii ("{\"version\":1,\"bucketIDBitSize\":20,\"bucketHasher\":1," ++
    "\"slowHasher\":1,\"bucketEncryptor\":1,\"oprfSuite\":3}") := by decide +kernel

/-- The key of an encoded server configuration. -/
def keyMember (k : Bytes) : Member := ⟨ascii "privateKey", encBytes k, .str (b64Encode k)⟩

theorem auxMembers_ok (c : Config) (k : Bytes) :
    ∀ m ∈ configMembers c ++ [keyMember k],
      PlainName m.name ∧ Reads m.text m.val := by
  intro m hm
  rcases List.mem_append.mp hm with hm | hm
  · exact configMembers_ok c m hm
  · rw [List.mem_singleton.mp hm]
    exact ⟨by dsimp only [keyMember]; decide, Reads.bytes _⟩

/-- Reading the configuration members of a server configuration. -/
theorem setMembers_aux (c : Config) (a0 : AuxServerConfig) (hc : IsGoInt c.bucketIDBitSize) (k : Bytes)
    (stale : Nat → Nat → UInt8) :
    setMembers auxFields stale
      ((configMembers c ++ [keyMember k]).map
        (fun m : Member => (m.name, m.val))) a0 = ({ toConfig := c, privateKey := k }, false) := by
  simp only [configMembers, keyMember, List.map_cons, List.map_nil, List.cons_append, List.nil_append]
  rw [setMembers_cons (f := auxFields[0]) rfl
    (t' := { a0 with version := c.version })
    (by show (({ a0 with version := (setU16 _ _).1 } : AuxServerConfig), (setU16 _ _).2) = _
        rw [setU16_natDec])]
  rw [setMembers_cons (f := auxFields[1]) rfl
    (t' := { a0 with version := c.version, bucketIDBitSize := c.bucketIDBitSize })
    (by show (({ a0 with version := c.version, bucketIDBitSize := (setInt _ _).1 } : AuxServerConfig),
          (setInt _ _).2) = _
        rw [setInt_intDec hc])]
  rw [setMembers_cons (f := auxFields[2]) rfl
    (t' := { a0 with version := c.version, bucketIDBitSize := c.bucketIDBitSize,
                     bucketHasherID := c.bucketHasherID })
    (by show (({ a0 with version := c.version, bucketIDBitSize := c.bucketIDBitSize,
                         bucketHasherID := (setU16 _ _).1 } : AuxServerConfig), (setU16 _ _).2) = _
        rw [setU16_natDec])]
  rw [setMembers_cons (f := auxFields[3]) rfl
    (t' := { a0 with version := c.version, bucketIDBitSize := c.bucketIDBitSize,
                     bucketHasherID := c.bucketHasherID, slowHasherID := c.slowHasherID })
    (by show (({ a0 with version := c.version, bucketIDBitSize := c.bucketIDBitSize,
                         bucketHasherID := c.bucketHasherID,
                         slowHasherID := (setU16 _ _).1 } : AuxServerConfig),
          (setU16 _ _).2) = _
        rw [setU16_natDec])]
  rw [setMembers_cons (f := auxFields[4]) rfl
    (t' := { toConfig := { c with oprfSuite := a0.oprfSuite }, privateKey := a0.privateKey })
    (by show (({ toConfig := { c with bucketEncryptorID := (setU16 _ _).1, oprfSuite := a0.oprfSuite },
                 privateKey := a0.privateKey } : AuxServerConfig), (setU16 _ _).2) = _
        rw [setU16_natDec])]
  rw [setMembers_cons (f := auxFields[5]) rfl
    (t' := { toConfig := c, privateKey := a0.privateKey })
    (by show (({ toConfig := { c with oprfSuite := (setU16 _ _).1 },
                 privateKey := a0.privateKey } : AuxServerConfig), (setU16 _ _).2) = _
        rw [setU16_natDec])]
  rw [setMembers_cons (f := auxFields[6]) rfl
    (t' := { toConfig := c, privateKey := k })
    (by show (({ toConfig := c, privateKey := (setBytes _ _ _).1 } : AuxServerConfig),
          (setBytes _ _ _).2) = _
        rw [setBytes_b64])]
  rfl

/-- C53: an encoded server configuration is decoded into the same configuration with the key that
`Deserialize` makes of the serialised key, or fails if `Deserialize` does. -/
theorem C53_server_config (E : Ext) (c : ServerConfig) (hc : IsGoInt c.bucketIDBitSize)
    (stale : Nat → Nat → UInt8) :
    ServerConfig.unmarshalJSON E stale (c.marshalJSON E) =
      match E.deKey c.oprfSuite (E.serKey c.privateKey) with
      | none => .err .oprfKey
      | some k => .ok { c with privateKey := k } := by
  have hm : c.marshalJSON E = encObject ((configMembers c.toConfig ++
      [keyMember (E.serKey c.privateKey)]).map
        (fun m : Member => (m.name, m.text))) := rfl
  unfold ServerConfig.unmarshalJSON unmarshalStruct
  rw [hm, parse_object _ (by simp [configMembers]) (auxMembers_ok _ _)]
  dsimp only [setStruct]
  rw [setMembers_aux _ _ hc]
  rfl

/-- C53: in particular it round-trips for every key that can be used with the configured suite. -/
theorem C53_server_config_key (E : Ext) (c : ServerConfig) (hc : IsGoInt c.bucketIDBitSize)
    (hk : E.keyOK c.oprfSuite c.privateKey = true) (stale : Nat → Nat → UInt8) :
    ServerConfig.unmarshalJSON E stale (c.marshalJSON E) = .ok c := by
  rw [C53_server_config E c hc, E.deKey_serKey _ _ hk]

/-- C53: so a server that could be built from a configuration can be rebuilt from its JSON, with the
same result. -/
theorem C53_server_rebuilt (E : Ext) (c : ServerConfig) (hc : IsGoInt c.bucketIDBitSize) (s : Server)
    (hs : NewServer E c = .ok s) (stale : Nat → Nat → UInt8) :
    (ServerConfig.unmarshalJSON E stale (c.marshalJSON E) >>= NewServer E) = .ok s := by
  have hk : E.keyOK c.oprfSuite c.privateKey = true := by
    unfold NewServer at hs
    obtain ⟨_, _, hs⟩ := Res.bind_eq_ok.mp hs
    obtain ⟨_, _, hs⟩ := Res.bind_eq_ok.mp hs
    obtain ⟨_, _, hs⟩ := Res.bind_eq_ok.mp hs
    cases hsu : E.suites c.oprfSuite with
    | none => rw [hsu] at hs; cases hs
    | some S =>
      rw [hsu] at hs
      dsimp only at hs
      split at hs
      · assumption
      · cases hs
  rw [C53_server_config_key E c hc hk]
  exact hs

end Migp.Props
