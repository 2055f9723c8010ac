import Verif.Model.JsonNil
import Verif.Props.JsonText
/-!
# C69: requests and responses with nil slices in JSON
-/
namespace Migp.Props
open Migp.Json Migp.Spec

/-- A nil slice stands as `null` in JSON, any other as canonical base64. -/
def IsSlice (b : Option Bytes) (v : JVal) : Prop :=
  (b = none ∧ v = .null) ∨ ∃ x s, b = some x ∧ v = .str s ∧ CanonicalBase64 s x

/-- The value that is written for a slice. -/
def sliceVal : Option Bytes → JVal
  | none => .null
  | some b => .str (b64Encode b)

theorem sliceVal_is (b : Option Bytes) : IsSlice b (sliceVal b) := by
  cases b with
  | none => exact .inl ⟨rfl, rfl⟩
  | some x => exact .inr ⟨x, _, rfl, rfl, b64Encode_canonical _⟩

theorem Reads.slice (b : Option Bytes) : Reads (encSlice b) (sliceVal b) := by
  cases b with
  | none => intro k ms st c hc; rfl
  | some x => exact Reads.bytes x

theorem setBytes_slice (stale : Nat → UInt8) (b : Option Bytes) (old : Bytes) :
    setBytes stale (sliceVal b) old = (sliceBytes b, false) := by
  cases b with
  | none => rfl
  | some x => exact setBytes_b64 _ _ _

/-- The members of a response with such slices. -/
def nilResponse (v : UInt32) (e b : Option Bytes) : List Member :=
  [⟨ascii "version", natDec v.toNat, .num (natDec v.toNat)⟩, ⟨ascii "evaluatedElement", encSlice e, sliceVal e⟩,
   ⟨ascii "bucketContents", encSlice b, sliceVal b⟩]

theorem nilResponse_ok (v : UInt32) (e b : Option Bytes) :
    ∀ m ∈ nilResponse v e b, PlainName m.name ∧ Reads m.text m.val := by
  intro m hm
  simp only [nilResponse, List.mem_cons, List.not_mem_nil, or_false] at hm
  rcases hm with rfl | rfl | rfl
  · exact ⟨by dsimp only; decide, Reads.nat _⟩
  · exact ⟨by dsimp only; decide, Reads.slice _⟩
  · exact ⟨by dsimp only; decide, Reads.slice _⟩

/-- The members of a request with such a slice. -/
def nilRequest (v : UInt32) (id : GoString) (e : Option Bytes) : List Member :=
  [⟨ascii "version", natDec v.toNat, .num (natDec v.toNat)⟩, ⟨ascii "bucketID", quote id, .str (toValidUTF8 id)⟩,
   ⟨ascii "blindElement", encSlice e, sliceVal e⟩]

theorem nilRequest_ok (v : UInt32) (id : GoString) (e : Option Bytes) :
    ∀ m ∈ nilRequest v id e, PlainName m.name ∧ Reads m.text m.val := by
  intro m hm
  simp only [nilRequest, List.mem_cons, List.not_mem_nil, or_false] at hm
  rcases hm with rfl | rfl | rfl
  · exact ⟨by dsimp only; decide, Reads.nat _⟩
  · exact ⟨by dsimp only; decide, Reads.quote _⟩
  · exact ⟨by dsimp only; decide, Reads.slice _⟩

/-- C69: slices that are not nil are written as `C69_response` and `C69_request` say. -/
theorem C69_not_nil (v : UInt32) (id : GoString) (e b : Bytes) :
    ServerResponse.marshalSlices v (some e) (some b) = (⟨v, e, b⟩ : ServerResponse).marshalJSON ∧
    ClientRequest.marshalSlices v id (some e) = (⟨v, id, e⟩ : ClientRequest).marshalJSON := ⟨rfl, rfl⟩

/-- C69: a response with nil slices in JSON: `null` stands for each of them; and decoding it gives empty slices for them,
whatever the struct held before that it is decoded into. So a reader in another language must take `null` for the contents
of an empty bucket. -/
theorem C69_nil_response (v : UInt32) (e b : Option Bytes) :
    (∃ version element bucket, IsDocument (ServerResponse.marshalSlices v e b) (.obj [(ascii "version", .num version),
        (ascii "evaluatedElement", element), (ascii "bucketContents", bucket)]) ∧
      IsDecimal version v.toNat ∧ IsSlice e element ∧ IsSlice b bucket) ∧
    ∀ stale r0, ServerResponse.unmarshalJSON stale (ServerResponse.marshalSlices v e b) r0 =
      (⟨v, sliceBytes e, sliceBytes b⟩, false) := by
  have hp := parse_object (nilResponse v e b) (by simp [nilResponse]) (nilResponse_ok v e b)
  refine ⟨⟨natDec v.toNat, sliceVal e, sliceVal b, ((C63_grammar _).1 _).mp hp, natDec_isDecimal _, sliceVal_is e, sliceVal_is b⟩, ?_⟩
  intro stale r0
  have hm : ServerResponse.marshalSlices v e b = encObject ((nilResponse v e b).map (fun m : Member => (m.name, m.text))) := rfl
  unfold ServerResponse.unmarshalJSON unmarshalStruct
  rw [hm, hp]
  show setMembers responseFields stale _ r0 = _
  simp only [nilResponse, List.map_cons, List.map_nil]
  rw [setMembers_cons (f := responseFields[0]) rfl (t' := { r0 with version := v })
    (by show (({ r0 with version := (setU32 _ r0.version).1 } : ServerResponse), (setU32 _ r0.version).2) = _
        rw [setU32_natDec])]
  rw [setMembers_cons (f := responseFields[1]) rfl (t' := ⟨v, sliceBytes e, r0.bucketContents⟩)
    (by show (({ r0 with version := v, evaluatedElement := (setBytes _ _ _).1 } : ServerResponse),
          (setBytes _ _ _).2) = _
        rw [setBytes_slice])]
  rw [setMembers_cons (f := responseFields[2]) rfl (t' := ⟨v, sliceBytes e, sliceBytes b⟩)
    (by show ((⟨v, sliceBytes e, (setBytes _ _ _).1⟩ : ServerResponse), (setBytes _ _ _).2) = _
        rw [setBytes_slice])]
  rfl

/-- C69: the same for requests; a server reads a nil element as it reads an empty one. -/
theorem C69_nil_request (v : UInt32) (id : GoString) (e : Option Bytes) :
    (∃ version bucketID element, IsDocument (ClientRequest.marshalSlices v id e) (.obj [(ascii "version", .num version),
        (ascii "bucketID", .str bucketID), (ascii "blindElement", element)]) ∧
      IsDecimal version v.toNat ∧ Replaced id bucketID ∧ IsSlice e element) ∧
    ∀ stale r0, ClientRequest.unmarshalJSON stale (ClientRequest.marshalSlices v id e) r0 =
      ClientRequest.unmarshalJSON stale (⟨v, id, sliceBytes e⟩ : ClientRequest).marshalJSON r0 := by
  have hp := parse_object (nilRequest v id e) (by simp [nilRequest]) (nilRequest_ok v id e)
  refine ⟨⟨natDec v.toNat, toValidUTF8 id, sliceVal e, ((C63_grammar _).1 _).mp hp, natDec_isDecimal _,
    (C53_replacement _ _).mp rfl, sliceVal_is e⟩, ?_⟩
  intro stale r0
  have hm : ClientRequest.marshalSlices v id e = encObject ((nilRequest v id e).map (fun m : Member => (m.name, m.text))) := rfl
  rw [C53_request]
  unfold ClientRequest.unmarshalJSON unmarshalStruct
  rw [hm, hp]
  show setMembers requestFields stale _ r0 = _
  simp only [nilRequest, List.map_cons, List.map_nil]
  rw [setMembers_cons (f := requestFields[0]) rfl (t' := { r0 with version := v })
    (by show (({ r0 with version := (setU32 _ r0.version).1 } : ClientRequest), (setU32 _ r0.version).2) = _
        rw [setU32_natDec])]
  rw [setMembers_cons (f := requestFields[1]) rfl rfl]
  rw [setMembers_cons (f := requestFields[2]) rfl (t' := ⟨v, toValidUTF8 id, sliceBytes e⟩)
    (by show ((⟨v, toValidUTF8 id, (setBytes _ _ _).1⟩ : ClientRequest), (setBytes _ _ _).2) = _
        rw [setBytes_slice])]
  rfl

/-- C69_nil_response, C69_nil_request: a response for a bucket that was never written; a request without an element. -/
example : ServerResponse.marshalSlices 1 (some [1, 2, 3]) none =
      ascii "{\"version\":1,\"evaluatedElement\":\"AQID\",\"bucketContents\":null}" ∧
    ClientRequest.marshalSlices 1 (ascii "00000") none = ascii "{\"version\":1,\"bucketID\":\"00000\",\"blindElement\":null}" := by
  decide +kernel

end Migp.Props
