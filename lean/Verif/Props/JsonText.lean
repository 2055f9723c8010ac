import Verif.Props.ServerJson
import Verif.Props.Json
import Verif.Props.JsonDecode
/-!
# C69: the JSON that the package writes, and responses in JSON
-/
namespace Migp.Props
open Migp.Json Migp.Spec

theorem natDec_isDecimal (n : Nat) : IsDecimal (natDec n) n :=
  ((parseUint_iff n _ n).mp (parseUint_natDec (Nat.le_refl n))).1

theorem intDec_isInt {n : Int} (h : IsGoInt n) : IsInt (.num (intDec n)) n :=
  (parseInt_iff _ _).mp (parseInt_intDec h.1 h.2)

/-- C69: a request in JSON is one object with the three members, in this order: the version as a decimal number, the
bucket ID as a string (where U+FFFD replaces what is not UTF-8), the blinded element in canonical base64. -/
theorem C69_request (r : ClientRequest) : ∃ version bucketID element,
    IsDocument r.marshalJSON (.obj [(ascii "version", .num version), (ascii "bucketID", .str bucketID),
      (ascii "blindElement", .str element)]) ∧
    IsDecimal version r.version.toNat ∧ Replaced r.bucketID bucketID ∧ CanonicalBase64 element r.blindElement :=
  ⟨natDec r.version.toNat, toValidUTF8 r.bucketID, b64Encode r.blindElement,
    ((C63_grammar _).1 _).mp (parse_object (requestMembers r) (by simp [requestMembers]) (requestMembers_ok r)),
    natDec_isDecimal _, (C53_replacement _ _).mp rfl, b64Encode_canonical _⟩

theorem configMembers_is (c : Config) (hc : IsGoInt c.bucketIDBitSize) :
    IsConfigMembers c ((configMembers c).map (fun m : Member => (m.name, m.val))) :=
  ⟨_, _, _, _, _, _, rfl, natDec_isDecimal _, intDec_isInt hc, natDec_isDecimal _, natDec_isDecimal _,
    natDec_isDecimal _, natDec_isDecimal _⟩

/-- C69: a client configuration in JSON (what `/config` serves and `-dump-config` writes). -/
theorem C69_config (c : Config) (hc : IsGoInt c.bucketIDBitSize) :
    ∃ ms, IsDocument c.marshalJSON (.obj ms) ∧ IsConfigMembers c ms :=
  ⟨_, ((C63_grammar _).1 _).mp (parse_object (configMembers c) (by simp [configMembers]) (configMembers_ok c)),
    configMembers_is c hc⟩

/-- C69: a server configuration in JSON: the same members, and then the serialised key in canonical base64. -/
theorem C69_server_config (E : Ext) (c : ServerConfig) (hc : IsGoInt c.bucketIDBitSize) :
    ∃ ms key, IsDocument (c.marshalJSON E) (.obj (ms ++ [(ascii "privateKey", .str key)])) ∧
      IsConfigMembers c.toConfig ms ∧ CanonicalBase64 key (E.serKey c.privateKey) := by
  refine ⟨_, b64Encode (E.serKey c.privateKey), ?_, configMembers_is c.toConfig hc, b64Encode_canonical _⟩
  refine ((C63_grammar _).1 _).mp ?_
  have h := parse_object (configMembers c.toConfig ++ [keyMember (E.serKey c.privateKey)]) (by simp)
    (auxMembers_ok _ _)
  rw [List.map_append (f := fun m : Member => (m.name, m.val))] at h
  exact h

/-- The members of an encoded response. -/
def responseMembers (r : ServerResponse) : List Member :=
  [⟨ascii "version", natDec r.version.toNat, .num (natDec r.version.toNat)⟩,
   ⟨ascii "evaluatedElement", encBytes r.evaluatedElement, .str (b64Encode r.evaluatedElement)⟩,
   ⟨ascii "bucketContents", encBytes r.bucketContents, .str (b64Encode r.bucketContents)⟩]

theorem responseMembers_ok (r : ServerResponse) :
    ∀ m ∈ responseMembers r, PlainName m.name ∧ Reads m.text m.val := by
  intro m hm
  simp only [responseMembers, List.mem_cons, List.not_mem_nil, or_false] at hm
  rcases hm with rfl | rfl | rfl
  · exact ⟨by dsimp only; decide, Reads.nat _⟩
  · exact ⟨by dsimp only; decide, Reads.bytes _⟩
  · exact ⟨by dsimp only; decide, Reads.bytes _⟩

/-- C69: a response in JSON. -/
theorem C69_response (r : ServerResponse) : ∃ version element bucket,
    IsDocument r.marshalJSON (.obj [(ascii "version", .num version), (ascii "evaluatedElement", .str element),
      (ascii "bucketContents", .str bucket)]) ∧
    IsDecimal version r.version.toNat ∧ CanonicalBase64 element r.evaluatedElement ∧
    CanonicalBase64 bucket r.bucketContents :=
  ⟨natDec r.version.toNat, b64Encode r.evaluatedElement, b64Encode r.bucketContents,
    ((C63_grammar _).1 _).mp (parse_object (responseMembers r) (by simp [responseMembers]) (responseMembers_ok r)),
    natDec_isDecimal _, b64Encode_canonical _, b64Encode_canonical _⟩

/-- C69: a response survives JSON, unlike the binary format for every length of the evaluated element, and whatever
the struct held that it is decoded into. -/
theorem C69_response_round_trip (r r0 : ServerResponse) (stale : Nat → Nat → UInt8) :
    ServerResponse.unmarshalJSON stale r.marshalJSON r0 = (r, false) := by
  have hm : r.marshalJSON = encObject ((responseMembers r).map (fun m : Member => (m.name, m.text))) := rfl
  unfold ServerResponse.unmarshalJSON unmarshalStruct
  rw [hm, parse_object _ (by simp [responseMembers]) (responseMembers_ok r)]
  show setMembers responseFields stale _ r0 = _
  simp only [responseMembers, List.map_cons, List.map_nil]
  rw [setMembers_cons (f := responseFields[0]) rfl (t' := { r0 with version := r.version })
    (by show (({ r0 with version := (setU32 _ r0.version).1 } : ServerResponse), (setU32 _ r0.version).2) = _
        rw [setU32_natDec])]
  rw [setMembers_cons (f := responseFields[1]) rfl (t' := { r with bucketContents := r0.bucketContents })
    (by show (({ r0 with version := r.version, evaluatedElement := (setBytes _ _ _).1 } : ServerResponse),
          (setBytes _ _ _).2) = _
        rw [setBytes_b64])]
  rw [setMembers_cons (f := responseFields[2]) rfl (t' := r)
    (by show (({ r with bucketContents := (setBytes _ _ _).1 } : ServerResponse), (setBytes _ _ _).2) = _
        rw [setBytes_b64])]
  rfl

theorem responseFields_distinct : Distinct responseFields := by
  unfold Distinct responseFields
  refine .cons ?_ (.cons ?_ (.cons ?_ .nil))
  all_goals
    intro g hg
    fin_cases hg <;> decide

/-- C69: decoding any object into a response: each field is taken from the last member that names it and has an
acceptable value, as for requests (C63). -/
theorem C69_response_fields (stale : Nat → Nat → UInt8) (data : Bytes) (r0 : ServerResponse)
    (ms : List (GoString × JVal)) (h : IsDocument data (.obj ms)) :
    LastWins (ascii "version") (fun v (n : UInt32) => IsUint 4294967295 v n.toNat) ms r0.version
      (ServerResponse.unmarshalJSON stale data r0).1.version ∧
    ((∀ m ∈ ms, SameName (ascii "evaluatedElement") m.1 → ¬ MixedArray m.2) →
      LastWins (ascii "evaluatedElement") IsBytes ms r0.evaluatedElement
        (ServerResponse.unmarshalJSON stale data r0).1.evaluatedElement) ∧
    ((∀ m ∈ ms, SameName (ascii "bucketContents") m.1 → ¬ MixedArray m.2) →
      LastWins (ascii "bucketContents") IsBytes ms r0.bucketContents
        (ServerResponse.unmarshalJSON stale data r0).1.bucketContents) := by
  have hu : ServerResponse.unmarshalJSON stale data r0 = setMembers responseFields stale ms r0 := by
    unfold ServerResponse.unmarshalJSON unmarshalStruct
    rw [(parse_iff _ _).mpr h]
    rfl
  rw [hu]
  refine ⟨?_, fun hreg => ?_, fun hreg => ?_⟩
  · refine setMembers_field (f := responseFields[0]) responseFields_distinct (List.getElem_mem _) (by decide)
      (fun r : ServerResponse => r.version) obeys_u32 (fun _ _ _ => rfl) ?_ stale ms (fun _ _ _ => trivial) r0
    intro g hg hne
    fin_cases hg
    · exact absurd rfl hne
    · exact fun _ _ _ => rfl
    · exact fun _ _ _ => rfl
  · refine setMembers_field (f := responseFields[1]) responseFields_distinct (List.getElem_mem _) (by decide)
      (fun r : ServerResponse => r.evaluatedElement) obeys_bytes (fun _ _ _ => rfl) ?_ stale ms hreg r0
    intro g hg hne
    fin_cases hg
    · exact fun _ _ _ => rfl
    · exact absurd rfl hne
    · exact fun _ _ _ => rfl
  · refine setMembers_field (f := responseFields[2]) responseFields_distinct (List.getElem_mem _) (by decide)
      (fun r : ServerResponse => r.bucketContents) obeys_bytes (fun _ _ _ => rfl) ?_ stale ms hreg r0
    intro g hg hne
    fin_cases hg
    · exact fun _ _ _ => rfl
    · exact fun _ _ _ => rfl
    · exact absurd rfl hne

/-- C69: and what becomes of the fields of bytes whatever arrays are in the document. -/
theorem C69_response_bytes (stale : Nat → Nat → UInt8) (data : Bytes) (r0 : ServerResponse)
    (ms : List (GoString × JVal)) (h : IsDocument data (.obj ms)) :
    ByteField (ascii "evaluatedElement") ms r0.evaluatedElement
      (ServerResponse.unmarshalJSON stale data r0).1.evaluatedElement ∧
    ByteField (ascii "bucketContents") ms r0.bucketContents
      (ServerResponse.unmarshalJSON stale data r0).1.bucketContents := by
  have hu : ServerResponse.unmarshalJSON stale data r0 = setMembers responseFields stale ms r0 := by
    unfold ServerResponse.unmarshalJSON unmarshalStruct
    rw [(parse_iff _ _).mpr h]
    rfl
  rw [hu]
  constructor
  · refine setMembers_bytes (f := responseFields[1]) responseFields_distinct (List.getElem_mem _) (by decide)
      (fun r : ServerResponse => r.evaluatedElement) (fun _ _ _ => rfl) ?_ stale ms r0
    intro g hg hne
    fin_cases hg
    · exact fun _ _ _ => rfl
    · exact absurd rfl hne
    · exact fun _ _ _ => rfl
  · refine setMembers_bytes (f := responseFields[2]) responseFields_distinct (List.getElem_mem _) (by decide)
      (fun r : ServerResponse => r.bucketContents) (fun _ _ _ => rfl) ?_ stale ms r0
    intro g hg hne
    fin_cases hg
    · exact fun _ _ _ => rfl
    · exact fun _ _ _ => rfl
    · exact absurd rfl hne

/-- C69: a concrete response and its text; base64 with and without padding, and with left over bits that are not zero. -/
theorem C69_example :
    (⟨1, [1, 2, 3], [255, 0]⟩ : ServerResponse).marshalJSON =
      ascii "{\"version\":1,\"evaluatedElement\":\"AQID\",\"bucketContents\":\"/wA=\"}" ∧
    CanonicalBase64 (ascii "/wA=") [255, 0] ∧ IsBase64 (ascii "/w\nB=") [255, 0] ∧
    ¬ CanonicalBase64 (ascii "/wB=") [255, 0] ∧ (¬ ∃ b, IsBase64 (ascii "/wA") b) ∧ ¬ ∃ b, IsBase64 (ascii "/wA=AQID") b := by
  refine ⟨by decide +kernel, b64Encode_canonical [255, 0], (b64Decode_iff _ _).mp (by decide +kernel), ?_, ?_, ?_⟩
  · rintro ⟨n, chars, sextets, k, hs, hf, _, _, hb, _⟩
    have hc : chars = ascii "/wB" := split_pad chars (ascii "/wB") k 1 (forall₂_no_pad _ _ hf) (by decide)
      (hs.symm.trans (by decide))
    subst hc
    have hx : sextets = [63, 48, 1] := forall₂_functional _ _ _ hf
      (.cons (by decide) (.cons (by decide) (.cons (by decide) .nil)))
    subst hx
    have hl := congrArg List.length hb
    have hn : n = 2 := by
      rw [List.length_append, List.length_replicate] at hl
      have h1 : (List.flatMap (bits 6) [63, 48, 1]).length = 18 := by decide
      have h2 : (List.flatMap (fun x : UInt8 => bits 8 x.toNat) [255, 0]).length = 16 := by decide
      omega
    subst hn
    revert hb
    decide
  · rintro ⟨b, h⟩
    have := (b64Decode_iff _ _).mpr h
    have h' : b64Decode (ascii "/wA") = none := by decide +kernel
    rw [h'] at this
    cases this
  · rintro ⟨b, h⟩
    have := (b64Decode_iff _ _).mpr h
    have h' : b64Decode (ascii "/wA=AQID") = none := by decide +kernel
    rw [h'] at this
    cases this

end Migp.Props
