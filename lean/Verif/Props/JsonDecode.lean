import Verif.Lemmas.JsonDecode
import Verif.Lemmas.JsonGrammar
import Verif.Props.Json
import Verif.Model.Main
/-!
# C63: what decoding makes of every JSON document
-/
namespace Migp.Props
open Migp.Json Migp.Spec

theorem requestFields_distinct : Distinct requestFields := by
  unfold Distinct requestFields
  refine .cons ?_ (.cons ?_ (.cons ?_ .nil))
  all_goals
    intro g hg
    fin_cases hg <;> decide

/-- C63: every sequence of bytes is a document for at most one value; the decoder accepts exactly the documents. -/
theorem C63_grammar (data : Bytes) :
    (∀ v, parse data = some v ↔ IsDocument data v) ∧ (∀ v v', IsDocument data v → IsDocument data v' → v = v') ∧
    ∀ ms, parseFirst ⟨[], .value⟩ data = some (.obj ms) ↔ BeginsWithObject data ms := by
  refine ⟨parse_iff data, fun v v' h h' => ?_, parseFirst_iff data⟩
  have := (parse_iff data v).mpr h
  rw [(parse_iff data v').mpr h'] at this
  exact (Option.some.inj this).symm

/-- C63_grammar: a string with an escape, a pair of surrogates, a lone surrogate and a byte that is not UTF-8. -/
example : IsDocument (ascii "\"a\\n\\uD83D\\uDE00\\udc00" ++ [0xFF] ++ ascii "\"")
    (.str (ascii "a\n" ++ utf8 (Char.ofNat 0x1F600) ++ utf8 (Char.ofNat 0xFFFD) ++ utf8 (Char.ofNat 0xFFFD))) := by
  rw [← (C63_grammar _).1]
  have key : ∀ (o : Option JVal) (y : GoString), (match o with | some (.str s) => some s | _ => none) = some y →
      o = some (.str y) := by
    intro o y h
    split at h
    · cases h; rfl
    · cases h
  exact key _ _ (by decide +kernel)

/-- C63: decoding an object into a request, whatever the request held and however slices are allocated. Each field
is taken from the last member whose name is right up to case and whose value is acceptable; other members have no
effect on it (for the blinded element this is said for documents without arrays of other things than bytes in that
place). -/
theorem C63_request_fields (stale : Nat → Nat → UInt8) (data : Bytes) (r0 : ClientRequest)
    (ms : List (GoString × JVal)) (h : IsDocument data (.obj ms)) :
    LastWins (ascii "version") (fun v (n : UInt32) => IsUint 4294967295 v n.toNat) ms r0.version
      (ClientRequest.unmarshalJSON stale data r0).1.version ∧
    LastWins (ascii "bucketID") IsString ms r0.bucketID (ClientRequest.unmarshalJSON stale data r0).1.bucketID ∧
    ((∀ m ∈ ms, SameName (ascii "blindElement") m.1 → ¬ MixedArray m.2) →
      LastWins (ascii "blindElement") IsBytes ms r0.blindElement
        (ClientRequest.unmarshalJSON stale data r0).1.blindElement) := by
  have hu : ClientRequest.unmarshalJSON stale data r0 = setMembers requestFields stale ms r0 := by
    unfold ClientRequest.unmarshalJSON unmarshalStruct
    rw [(parse_iff _ _).mpr h]
    rfl
  rw [hu]
  refine ⟨?_, ?_, fun hreg => ?_⟩
  · refine setMembers_field (f := requestFields[0]) requestFields_distinct (List.getElem_mem _) (by decide)
      (fun r : ClientRequest => r.version) obeys_u32 (fun _ _ _ => rfl) ?_ stale ms (fun _ _ _ => trivial) r0
    intro g hg hne
    fin_cases hg
    · exact absurd rfl hne
    · exact fun _ _ _ => rfl
    · exact fun _ _ _ => rfl
  · refine setMembers_field (f := requestFields[1]) requestFields_distinct (List.getElem_mem _) (by decide)
      (fun r : ClientRequest => r.bucketID) obeys_string (fun _ _ _ => rfl) ?_ stale ms (fun _ _ _ => trivial) r0
    intro g hg hne
    fin_cases hg
    · exact fun _ _ _ => rfl
    · exact absurd rfl hne
    · exact fun _ _ _ => rfl
  · refine setMembers_field (f := requestFields[2]) requestFields_distinct (List.getElem_mem _) (by decide)
      (fun r : ClientRequest => r.blindElement) obeys_bytes (fun _ _ _ => rfl) ?_ stale ms hreg r0
    intro g hg hne
    fin_cases hg
    · exact fun _ _ _ => rfl
    · exact fun _ _ _ => rfl
    · exact absurd rfl hne

/-- C63: an error is reported for exactly the objects with an ill-typed member for one of the three fields: numbers
out of range, negative, with point or exponent; strings or arrays for the version; and so on. -/
theorem C63_request_error (stale : Nat → Nat → UInt8) (data : Bytes) (r0 : ClientRequest)
    (ms : List (GoString × JVal)) (h : IsDocument data (.obj ms)) :
    (ClientRequest.unmarshalJSON stale data r0).2 = true ↔
      IllTyped (ascii "version") (fun v (n : UInt32) => IsUint 4294967295 v n.toNat) ms ∨
      IllTyped (ascii "bucketID") IsString ms ∨
      ∃ m ∈ ms, SameName (ascii "blindElement") m.1 ∧ NotBytes m.2 := by
  have hu : ClientRequest.unmarshalJSON stale data r0 = setMembers requestFields stale ms r0 := by
    unfold ClientRequest.unmarshalJSON unmarshalStruct
    rw [(parse_iff _ _).mpr h]
    rfl
  rw [hu, setMembers_err requestFields_distinct (by intro f hf; fin_cases hf <;> decide)
    (fun f v =>
      if f.name = ascii "version" then Unacceptable (fun v (n : UInt32) => IsUint 4294967295 v n.toNat) v
      else if f.name = ascii "bucketID" then Unacceptable IsString v else NotBytes v)
    (by
      intro f hf
      fin_cases hf
      · exact fun st v t => obeys_u32.err st v t.version
      · exact fun st v t => obeys_string.err st v t.bucketID
      · exact fun st v t => obeys_bytes.err st v t.blindElement)]
  constructor
  · rintro ⟨m, hm, f, hf, hs, hb⟩
    fin_cases hf
    · exact .inl ⟨m, hm, hs, hb⟩
    · exact .inr (.inl ⟨m, hm, hs, hb⟩)
    · exact .inr (.inr ⟨m, hm, hs, hb⟩)
  · rintro (⟨m, hm, hs, hb⟩ | ⟨m, hm, hs, hb⟩ | ⟨m, hm, hs, hb⟩)
    · exact ⟨m, hm, requestFields[0], List.getElem_mem _, hs, hb⟩
    · exact ⟨m, hm, requestFields[1], List.getElem_mem _, hs, hb⟩
    · exact ⟨m, hm, requestFields[2], List.getElem_mem _, hs, hb⟩

/-- C63: a document that is not an object changes nothing; it is an error unless it is `null`. -/
theorem C63_request_other (stale : Nat → Nat → UInt8) (data : Bytes) (r0 : ClientRequest)
    (h : ∀ ms, ¬ IsDocument data (.obj ms)) :
    (ClientRequest.unmarshalJSON stale data r0).1 = r0 ∧
    ((ClientRequest.unmarshalJSON stale data r0).2 = false ↔ IsDocument data .null) := by
  rw [← parse_iff]
  unfold ClientRequest.unmarshalJSON unmarshalStruct
  cases hp : parse data with
  | none => simp
  | some v =>
    cases v with
    | obj ms => exact absurd ((parse_iff _ _).mp hp) (h ms)
    | null => exact ⟨rfl, fun _ => rfl, fun _ => rfl⟩
    | _ => exact ⟨rfl, (fun h => by cases h), fun h => by simp at h⟩

/-- The fields of a configuration after decoding an object with the members `ms` over the configuration `old`. -/
def ConfigFields (ms : List (GoString × JVal)) (old new : Config) : Prop :=
  LastWins (ascii "version") (fun v (n : UInt16) => IsUint 65535 v n.toNat) ms old.version new.version ∧
  LastWins (ascii "bucketIDBitSize") IsInt ms old.bucketIDBitSize new.bucketIDBitSize ∧
  LastWins (ascii "bucketHasher") (fun v (n : UInt16) => IsUint 65535 v n.toNat) ms old.bucketHasherID new.bucketHasherID ∧
  LastWins (ascii "slowHasher") (fun v (n : UInt16) => IsUint 65535 v n.toNat) ms old.slowHasherID new.slowHasherID ∧
  LastWins (ascii "bucketEncryptor") (fun v (n : UInt16) => IsUint 65535 v n.toNat) ms old.bucketEncryptorID new.bucketEncryptorID ∧
  LastWins (ascii "oprfSuite") (fun v (n : UInt16) => IsUint 65535 v n.toNat) ms old.oprfSuite new.oprfSuite

/-- The object has an ill-typed member for a field of a configuration. -/
def ConfigIllTyped (ms : List (GoString × JVal)) : Prop :=
  IllTyped (ascii "version") (fun v (n : UInt16) => IsUint 65535 v n.toNat) ms ∨
  IllTyped (ascii "bucketIDBitSize") IsInt ms ∨
  IllTyped (ascii "bucketHasher") (fun v (n : UInt16) => IsUint 65535 v n.toNat) ms ∨
  IllTyped (ascii "slowHasher") (fun v (n : UInt16) => IsUint 65535 v n.toNat) ms ∨
  IllTyped (ascii "bucketEncryptor") (fun v (n : UInt16) => IsUint 65535 v n.toNat) ms ∨
  IllTyped (ascii "oprfSuite") (fun v (n : UInt16) => IsUint 65535 v n.toNat) ms

theorem distinct_of_names {T : Type} {fields : List (JField T)}
    (h : (fields.map (fun f => fold f.name)).Pairwise (· ≠ ·)) : Distinct fields := List.pairwise_map.mp h

theorem configFields_names {T : Type} (get : T → Config) (put : T → Config → T) :
    (configFields get put).map (fun f => fold f.name) =
      [fold (ascii "version"), fold (ascii "bucketIDBitSize"), fold (ascii "bucketHasher"), fold (ascii "slowHasher"),
       fold (ascii "bucketEncryptor"), fold (ascii "oprfSuite")] := rfl

theorem configFields_length {T : Type} (get : T → Config) (put : T → Config → T) :
    (configFields get put).length = 6 := rfl

theorem configFields_distinct {T : Type} (get : T → Config) (put : T → Config → T) :
    Distinct (configFields get put ++ []) := by
  refine distinct_of_names ?_
  rw [List.append_nil, configFields_names]
  decide

theorem auxFields_distinct : Distinct auxFields := by
  refine distinct_of_names ?_
  unfold auxFields
  rw [List.map_append, configFields_names]
  decide

theorem setMembers_configFields {T : Type} (get : T → Config) (put : T → Config → T)
    (hgp : ∀ t c, get (put t c) = c) (extra : List (JField T)) (hd : Distinct (configFields get put ++ extra))
    (hx : ∀ f ∈ extra, ∀ st v t, get (f.set st v t).1 = get t) (stale : Nat → Nat → UInt8)
    (ms : List (GoString × JVal)) (t : T) :
    ConfigFields ms (get t) (get (setMembers (configFields get put ++ extra) stale ms t).1) := by
  refine ⟨?_, ?_, ?_, ?_, ?_, ?_⟩
  · refine setMembers_field (f := (configFields get put)[0]'(by rw [configFields_length]; decide)) hd (List.mem_append_left _ (List.getElem_mem _))
      (by show ∀ c ∈ ascii "version", c.toNat < 128; decide) (fun t : T => (get t).version) obeys_u16
      (fun st v t => by
        show (get (put t _)).version = _
        rw [hgp]) ?_ stale ms (fun _ _ _ => trivial) t
    intro g hg hne st v t
    rcases List.mem_append.mp hg with hg | hg
    · simp only [configFields, List.mem_cons, List.not_mem_nil, or_false] at hg
      rcases hg with rfl | rfl | rfl | rfl | rfl | rfl
      · exact absurd rfl hne
      · show (get (put t _)).version = _
        rw [hgp]
      · show (get (put t _)).version = _
        rw [hgp]
      · show (get (put t _)).version = _
        rw [hgp]
      · show (get (put t _)).version = _
        rw [hgp]
      · show (get (put t _)).version = _
        rw [hgp]
    · rw [hx g hg]
  · refine setMembers_field (f := (configFields get put)[1]'(by rw [configFields_length]; decide)) hd (List.mem_append_left _ (List.getElem_mem _))
      (by show ∀ c ∈ ascii "bucketIDBitSize", c.toNat < 128; decide) (fun t : T => (get t).bucketIDBitSize) obeys_int
      (fun st v t => by
        show (get (put t _)).bucketIDBitSize = _
        rw [hgp]) ?_ stale ms (fun _ _ _ => trivial) t
    intro g hg hne st v t
    rcases List.mem_append.mp hg with hg | hg
    · simp only [configFields, List.mem_cons, List.not_mem_nil, or_false] at hg
      rcases hg with rfl | rfl | rfl | rfl | rfl | rfl
      · show (get (put t _)).bucketIDBitSize = _
        rw [hgp]
      · exact absurd rfl hne
      · show (get (put t _)).bucketIDBitSize = _
        rw [hgp]
      · show (get (put t _)).bucketIDBitSize = _
        rw [hgp]
      · show (get (put t _)).bucketIDBitSize = _
        rw [hgp]
      · show (get (put t _)).bucketIDBitSize = _
        rw [hgp]
    · rw [hx g hg]
  · refine setMembers_field (f := (configFields get put)[2]'(by rw [configFields_length]; decide)) hd (List.mem_append_left _ (List.getElem_mem _))
      (by show ∀ c ∈ ascii "bucketHasher", c.toNat < 128; decide) (fun t : T => (get t).bucketHasherID) obeys_u16
      (fun st v t => by
        show (get (put t _)).bucketHasherID = _
        rw [hgp]) ?_ stale ms (fun _ _ _ => trivial) t
    intro g hg hne st v t
    rcases List.mem_append.mp hg with hg | hg
    · simp only [configFields, List.mem_cons, List.not_mem_nil, or_false] at hg
      rcases hg with rfl | rfl | rfl | rfl | rfl | rfl
      · show (get (put t _)).bucketHasherID = _
        rw [hgp]
      · show (get (put t _)).bucketHasherID = _
        rw [hgp]
      · exact absurd rfl hne
      · show (get (put t _)).bucketHasherID = _
        rw [hgp]
      · show (get (put t _)).bucketHasherID = _
        rw [hgp]
      · show (get (put t _)).bucketHasherID = _
        rw [hgp]
    · rw [hx g hg]
  · refine setMembers_field (f := (configFields get put)[3]'(by rw [configFields_length]; decide)) hd (List.mem_append_left _ (List.getElem_mem _))
      (by show ∀ c ∈ ascii "slowHasher", c.toNat < 128; decide) (fun t : T => (get t).slowHasherID) obeys_u16
      (fun st v t => by
        show (get (put t _)).slowHasherID = _
        rw [hgp]) ?_ stale ms (fun _ _ _ => trivial) t
    intro g hg hne st v t
    rcases List.mem_append.mp hg with hg | hg
    · simp only [configFields, List.mem_cons, List.not_mem_nil, or_false] at hg
      rcases hg with rfl | rfl | rfl | rfl | rfl | rfl
      · show (get (put t _)).slowHasherID = _
        rw [hgp]
      · show (get (put t _)).slowHasherID = _
        rw [hgp]
      · show (get (put t _)).slowHasherID = _
        rw [hgp]
      · exact absurd rfl hne
      · show (get (put t _)).slowHasherID = _
        rw [hgp]
      · show (get (put t _)).slowHasherID = _
        rw [hgp]
    · rw [hx g hg]
  · refine setMembers_field (f := (configFields get put)[4]'(by rw [configFields_length]; decide)) hd (List.mem_append_left _ (List.getElem_mem _))
      (by show ∀ c ∈ ascii "bucketEncryptor", c.toNat < 128; decide) (fun t : T => (get t).bucketEncryptorID) obeys_u16
      (fun st v t => by
        show (get (put t _)).bucketEncryptorID = _
        rw [hgp]) ?_ stale ms (fun _ _ _ => trivial) t
    intro g hg hne st v t
    rcases List.mem_append.mp hg with hg | hg
    · simp only [configFields, List.mem_cons, List.not_mem_nil, or_false] at hg
      rcases hg with rfl | rfl | rfl | rfl | rfl | rfl
      · show (get (put t _)).bucketEncryptorID = _
        rw [hgp]
      · show (get (put t _)).bucketEncryptorID = _
        rw [hgp]
      · show (get (put t _)).bucketEncryptorID = _
        rw [hgp]
      · show (get (put t _)).bucketEncryptorID = _
        rw [hgp]
      · exact absurd rfl hne
      · show (get (put t _)).bucketEncryptorID = _
        rw [hgp]
    · rw [hx g hg]
  · refine setMembers_field (f := (configFields get put)[5]'(by rw [configFields_length]; decide)) hd (List.mem_append_left _ (List.getElem_mem _))
      (by show ∀ c ∈ ascii "oprfSuite", c.toNat < 128; decide) (fun t : T => (get t).oprfSuite) obeys_u16
      (fun st v t => by
        show (get (put t _)).oprfSuite = _
        rw [hgp]) ?_ stale ms (fun _ _ _ => trivial) t
    intro g hg hne st v t
    rcases List.mem_append.mp hg with hg | hg
    · simp only [configFields, List.mem_cons, List.not_mem_nil, or_false] at hg
      rcases hg with rfl | rfl | rfl | rfl | rfl | rfl
      · show (get (put t _)).oprfSuite = _
        rw [hgp]
      · show (get (put t _)).oprfSuite = _
        rw [hgp]
      · show (get (put t _)).oprfSuite = _
        rw [hgp]
      · show (get (put t _)).oprfSuite = _
        rw [hgp]
      · show (get (put t _)).oprfSuite = _
        rw [hgp]
      · exact absurd rfl hne
    · rw [hx g hg]

theorem setMembers_configErr {T : Type} (get : T → Config) (put : T → Config → T) (extra : List (JField T))
    (hd : Distinct (configFields get put ++ extra)) (hn : ∀ f ∈ extra, ∀ c ∈ f.name, c.toNat < 128)
    (bad : JVal → Prop) (hb : ∀ f ∈ extra, ∀ st v t, (f.set st v t).2 = true ↔ bad v)
    (stale : Nat → Nat → UInt8) (ms : List (GoString × JVal)) (t : T) :
    (setMembers (configFields get put ++ extra) stale ms t).2 = true ↔
      ConfigIllTyped ms ∨ ∃ m ∈ ms, ∃ f ∈ extra, SameName f.name m.1 ∧ bad m.2 := by
  have hnames : ∀ f ∈ configFields get put, ∀ c ∈ f.name, c.toNat < 128 := by
    intro f hf
    simp only [configFields, List.mem_cons, List.not_mem_nil, or_false] at hf
    rcases hf with rfl | rfl | rfl | rfl | rfl | rfl
    · show ∀ c ∈ ascii "version", c.toNat < 128; decide
    · show ∀ c ∈ ascii "bucketIDBitSize", c.toNat < 128; decide
    · show ∀ c ∈ ascii "bucketHasher", c.toNat < 128; decide
    · show ∀ c ∈ ascii "slowHasher", c.toNat < 128; decide
    · show ∀ c ∈ ascii "bucketEncryptor", c.toNat < 128; decide
    · show ∀ c ∈ ascii "oprfSuite", c.toNat < 128; decide
  have hx : ∀ f ∈ extra, f.name ∉ [ascii "version", ascii "bucketIDBitSize", ascii "bucketHasher", ascii "slowHasher",
      ascii "bucketEncryptor", ascii "oprfSuite"] := by
    intro f hf hm
    have hp := (List.pairwise_append.mp hd).2.2
    have hq : ∃ g ∈ configFields get put, g.name = f.name := by
      simp only [List.mem_cons, List.not_mem_nil, or_false] at hm
      rcases hm with h | h | h | h | h | h
      · exact ⟨(configFields get put)[0]'(by rw [configFields_length]; decide), List.getElem_mem _, h.symm⟩
      · exact ⟨(configFields get put)[1]'(by rw [configFields_length]; decide), List.getElem_mem _, h.symm⟩
      · exact ⟨(configFields get put)[2]'(by rw [configFields_length]; decide), List.getElem_mem _, h.symm⟩
      · exact ⟨(configFields get put)[3]'(by rw [configFields_length]; decide), List.getElem_mem _, h.symm⟩
      · exact ⟨(configFields get put)[4]'(by rw [configFields_length]; decide), List.getElem_mem _, h.symm⟩
      · exact ⟨(configFields get put)[5]'(by rw [configFields_length]; decide), List.getElem_mem _, h.symm⟩
    obtain ⟨g, hg, he⟩ := hq
    exact hp g hg f hf (by rw [he])
  rw [setMembers_err hd
    (by
      intro f hf
      rcases List.mem_append.mp hf with hf | hf
      · exact hnames f hf
      · exact hn f hf)
    (fun f v =>
      if f.name = ascii "bucketIDBitSize" then Unacceptable IsInt v
      else if f.name ∈ [ascii "version", ascii "bucketIDBitSize", ascii "bucketHasher", ascii "slowHasher",
        ascii "bucketEncryptor", ascii "oprfSuite"] then
        Unacceptable (fun v (n : UInt16) => IsUint 65535 v n.toNat) v
      else bad v)
    (by
      intro f hf st v t
      rcases List.mem_append.mp hf with hf | hf
      · simp only [configFields, List.mem_cons, List.not_mem_nil, or_false] at hf
        rcases hf with rfl | rfl | rfl | rfl | rfl | rfl
        · exact obeys_u16.err st v (get t).version
        · exact obeys_int.err st v (get t).bucketIDBitSize
        · exact obeys_u16.err st v (get t).bucketHasherID
        · exact obeys_u16.err st v (get t).slowHasherID
        · exact obeys_u16.err st v (get t).bucketEncryptorID
        · exact obeys_u16.err st v (get t).oprfSuite
      · have h1 := hx f hf
        have h2 : f.name ≠ ascii "bucketIDBitSize" := fun h => h1 (by rw [h]; decide)
        rw [if_neg h2, if_neg h1]
        exact hb f hf st v t)]
  constructor
  · rintro ⟨m, hm, f, hf, hs, hbad⟩
    rcases List.mem_append.mp hf with hf | hf
    · left
      simp only [configFields, List.mem_cons, List.not_mem_nil, or_false] at hf
      rcases hf with rfl | rfl | rfl | rfl | rfl | rfl
      · exact .inl ⟨m, hm, hs, hbad⟩
      · exact .inr (.inl ⟨m, hm, hs, hbad⟩)
      · exact .inr (.inr (.inl ⟨m, hm, hs, hbad⟩))
      · exact .inr (.inr (.inr (.inl ⟨m, hm, hs, hbad⟩)))
      · exact .inr (.inr (.inr (.inr (.inl ⟨m, hm, hs, hbad⟩))))
      · exact .inr (.inr (.inr (.inr (.inr (⟨m, hm, hs, hbad⟩)))))
    · have h1 := hx f hf
      have h2 : f.name ≠ ascii "bucketIDBitSize" := fun h => h1 (by rw [h]; decide)
      rw [if_neg h2, if_neg h1] at hbad
      exact .inr ⟨m, hm, f, hf, hs, hbad⟩
  · rintro (h | ⟨m, hm, f, hf, hs, hbad⟩)
    · rcases h with ⟨m, hm, hs, hb⟩ | ⟨m, hm, hs, hb⟩ | ⟨m, hm, hs, hb⟩ | ⟨m, hm, hs, hb⟩ | ⟨m, hm, hs, hb⟩ |
        ⟨m, hm, hs, hb⟩
      · exact ⟨m, hm, (configFields get put)[0]'(by rw [configFields_length]; decide), List.mem_append_left _ (List.getElem_mem _), hs, hb⟩
      · exact ⟨m, hm, (configFields get put)[1]'(by rw [configFields_length]; decide), List.mem_append_left _ (List.getElem_mem _), hs, hb⟩
      · exact ⟨m, hm, (configFields get put)[2]'(by rw [configFields_length]; decide), List.mem_append_left _ (List.getElem_mem _), hs, hb⟩
      · exact ⟨m, hm, (configFields get put)[3]'(by rw [configFields_length]; decide), List.mem_append_left _ (List.getElem_mem _), hs, hb⟩
      · exact ⟨m, hm, (configFields get put)[4]'(by rw [configFields_length]; decide), List.mem_append_left _ (List.getElem_mem _), hs, hb⟩
      · exact ⟨m, hm, (configFields get put)[5]'(by rw [configFields_length]; decide), List.mem_append_left _ (List.getElem_mem _), hs, hb⟩
    · have h1 := hx f hf
      have h2 : f.name ≠ ascii "bucketIDBitSize" := fun h => h1 (by rw [h]; decide)
      refine ⟨m, hm, f, List.mem_append_right _ hf, hs, ?_⟩
      rw [if_neg h2, if_neg h1]
      exact hbad

/-- C63: decoding an object into a client configuration, from a file or from a stream. -/
theorem C63_config (stale : Nat → Nat → UInt8) (data : Bytes) (c0 : Config) (ms : List (GoString × JVal)) :
    (IsDocument data (.obj ms) →
      ConfigFields ms c0 (Config.unmarshalJSON stale data c0).1 ∧
      ((Config.unmarshalJSON stale data c0).2 = true ↔ ConfigIllTyped ms)) ∧
    (BeginsWithObject data ms →
      ConfigFields ms c0 (Config.decodeJSON stale data c0).1 ∧
      ((Config.decodeJSON stale data c0).2 = true ↔ ConfigIllTyped ms)) := by
  have key : ConfigFields ms c0 (setMembers (configFields id (fun _ c => c)) stale ms c0).1 ∧
      ((setMembers (configFields id (fun _ c => c)) stale ms c0).2 = true ↔ ConfigIllTyped ms) := by
    have h1 := setMembers_configFields id (fun _ c => c) (fun _ _ => rfl) [] (configFields_distinct _ _)
      (fun f hf => by cases hf) stale ms c0
    have h2 := setMembers_configErr id (fun _ c => c) [] (configFields_distinct _ _) (fun f hf => by cases hf)
      (fun _ => False) (fun f hf => by cases hf) stale ms c0
    rw [List.append_nil] at h1 h2
    refine ⟨h1, h2.trans ⟨?_, .inl⟩⟩
    rintro (h | ⟨_, _, _, _, _, h⟩)
    · exact h
    · exact h.elim
  constructor
  · intro h
    unfold Config.unmarshalJSON unmarshalStruct
    rw [(parse_iff _ _).mpr h]
    exact key
  · intro h
    unfold Config.decodeJSON decodeStruct
    rw [(parseFirst_iff _ _).mpr h]
    exact key

/-- C63: a document that is not an object leaves a configuration as it was; it is an error unless it is `null`. -/
theorem C63_config_other (stale : Nat → Nat → UInt8) (data : Bytes) (c0 : Config)
    (h : ∀ ms, ¬ IsDocument data (.obj ms)) :
    (Config.unmarshalJSON stale data c0).1 = c0 ∧
    ((Config.unmarshalJSON stale data c0).2 = false ↔ IsDocument data .null) := by
  rw [← parse_iff]
  unfold Config.unmarshalJSON unmarshalStruct
  cases hp : parse data with
  | none => simp
  | some v =>
    cases v with
    | obj ms => exact absurd ((parse_iff _ _).mp hp) (h ms)
    | null => exact ⟨rfl, fun _ => rfl, fun _ => rfl⟩
    | _ => exact ⟨rfl, (fun h => by cases h), fun h => by simp at h⟩

/-- C63: what a server configuration read from an object contains, if it is accepted: numbers that fit their
fields, and a key that `Deserialize` accepted for the bytes of the last usable member `privateKey`; members that do
not fit are never silently taken for something else. -/
theorem C63_server_config (E : Ext) (stale : Nat → Nat → UInt8) (data : Bytes) (ms : List (GoString × JVal))
    (h : IsDocument data (.obj ms)) :
    ((∃ c, ServerConfig.unmarshalJSON E stale data = .ok c) →
      ¬ ConfigIllTyped ms ∧ ¬ ∃ m ∈ ms, SameName (ascii "privateKey") m.1 ∧ NotBytes m.2) ∧
    ∀ c, ServerConfig.unmarshalJSON E stale data = .ok c →
      ConfigFields ms Config.zero c.toConfig ∧
      ((∀ m ∈ ms, SameName (ascii "privateKey") m.1 → ¬ MixedArray m.2) →
        ∃ k, LastWins (ascii "privateKey") IsBytes ms [] k ∧ E.deKey c.oprfSuite k = some c.privateKey) := by
  let a0 : AuxServerConfig := { toConfig := Config.zero, privateKey := [] }
  have h1 : ConfigFields ms Config.zero (setMembers auxFields stale ms a0).1.toConfig :=
    setMembers_configFields (fun a : AuxServerConfig => a.toConfig) (fun a c => { a with toConfig := c })
      (fun _ _ => rfl) _ auxFields_distinct
      (fun f hf => by rw [List.mem_singleton.mp hf]; exact fun _ _ _ => rfl) stale ms a0
  have h2 : (setMembers auxFields stale ms a0).2 = true ↔ ConfigIllTyped ms ∨
      ∃ m ∈ ms, ∃ f ∈ (_ : List (JField AuxServerConfig)), SameName f.name m.1 ∧ NotBytes m.2 :=
    setMembers_configErr (fun a : AuxServerConfig => a.toConfig) (fun a c => { a with toConfig := c }) _
      auxFields_distinct
      (fun f hf => by
        rw [List.mem_singleton.mp hf]
        show ∀ c ∈ ascii "privateKey", c.toNat < 128
        decide) NotBytes
      (fun f hf => by
        rw [List.mem_singleton.mp hf]
        exact fun st v t => obeys_bytes.err st v t.privateKey) stale ms a0
  have h3 : (∀ m ∈ ms, SameName (ascii "privateKey") m.1 → ¬ MixedArray m.2) →
      LastWins (ascii "privateKey") IsBytes ms [] (setMembers auxFields stale ms a0).1.privateKey := by
    intro hreg
    refine setMembers_field (f := auxFields[6]) auxFields_distinct (List.getElem_mem _)
      (by show ∀ c ∈ ascii "privateKey", c.toNat < 128; decide)
      (fun a : AuxServerConfig => a.privateKey) obeys_bytes (fun _ _ _ => rfl) ?_ stale ms hreg a0
    intro g hg hne
    fin_cases hg
    · exact fun _ _ _ => rfl
    · exact fun _ _ _ => rfl
    · exact fun _ _ _ => rfl
    · exact fun _ _ _ => rfl
    · exact fun _ _ _ => rfl
    · exact fun _ _ _ => rfl
    · exact absurd rfl hne
  have hok : ∀ c, ServerConfig.unmarshalJSON E stale data = .ok c →
      (setMembers auxFields stale ms a0).2 = false ∧
      c.toConfig = (setMembers auxFields stale ms a0).1.toConfig ∧
      E.deKey c.oprfSuite (setMembers auxFields stale ms a0).1.privateKey = some c.privateKey := by
    intro c hc
    unfold ServerConfig.unmarshalJSON unmarshalStruct at hc
    rw [(parse_iff _ _).mpr h] at hc
    dsimp only [setStruct] at hc
    split at hc
    · cases hc
    · rename_i he
      cases hk : E.deKey (setMembers auxFields stale ms a0).1.oprfSuite
          (setMembers auxFields stale ms a0).1.privateKey with
      | none => rw [hk] at hc; cases hc
      | some k =>
        rw [hk] at hc
        obtain rfl := Res.ok.inj hc
        exact ⟨by simpa using he, rfl, hk⟩
  refine ⟨?_, fun c hc => ?_⟩
  · rintro ⟨c, hc⟩
    have he := (hok c hc).1
    constructor
    · intro hi
      rw [h2.mpr (.inl hi)] at he
      cases he
    · rintro ⟨m, hm, hs, hb⟩
      rw [h2.mpr (.inr ⟨m, hm, _, List.mem_singleton.mpr rfl, hs, hb⟩)] at he
      cases he
  · obtain ⟨_, h5, h6⟩ := hok c hc
    refine ⟨?_, fun hreg => ⟨_, h3 hreg, h6⟩⟩
    rw [h5]
    exact h1

/-- A document with a duplicate, a name in other case, an unknown name and a number out of range: the usable
duplicate and the other case count, the unknown name is skipped, the version stays as it was and an error is
reported. -/
theorem C63_example :
    ClientRequest.unmarshalJSON (fun _ _ => 0)
      (ascii ("{\"version\":4294967296, \"BUCKETid\":\"00\", \"x\":[1,{}], \"bucketID\":\"0a\", " ++
        "\"blindelement\":[1,255]}"))
      ⟨7, [], []⟩ = (⟨7, ascii "0a", [1, 255]⟩, true) := by decide +kernel

end Migp.Props
