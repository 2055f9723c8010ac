import Verif.Model.Server
import Verif.Go.JsonStruct
/-!
# The JSON forms of requests and configurations

client.go:30-34, common.go:44-51, server.go:35-72. A decoder returns the new value of the struct and
whether there was an error. `stale` is what the spare capacity of slices holds (see `Json.setByteElems`).
-/
namespace Migp
open Json

/-- A Go `int` (64-bit). -/
def IsGoInt (n : Int) : Prop := -9223372036854775808 ≤ n ∧ n ≤ 9223372036854775807

instance (n : Int) : Decidable (IsGoInt n) := by unfold IsGoInt; infer_instance

/-- Decoding into a `uint16` field. -/
def setU16 (v : JVal) (old : UInt16) : UInt16 × Bool :=
  let x := setUint 65535 v old.toNat
  (UInt16.ofNat x.1, x.2)

/-- Decoding into a `uint32` field. -/
def setU32 (v : JVal) (old : UInt32) : UInt32 × Bool :=
  let x := setUint 4294967295 v old.toNat
  (UInt32.ofNat x.1, x.2)

/-- client.go:30-34: the struct tags. -/
def requestFields : List (JField ClientRequest) :=
  [⟨ascii "version", fun _ v r => let x := setU32 v r.version; ({ r with version := x.1 }, x.2)⟩,
   ⟨ascii "bucketID", fun _ v r => let x := setString v r.bucketID; ({ r with bucketID := x.1 }, x.2)⟩,
   ⟨ascii "blindElement", fun stale v r =>
      let x := setBytes stale v r.blindElement; ({ r with blindElement := x.1 }, x.2)⟩]

/-- The zero value of `ClientRequest`. -/
def ClientRequest.zero : ClientRequest := ⟨0, [], []⟩

/-- `json.Unmarshal(data, &r)` for `r ClientRequest`. -/
def ClientRequest.unmarshalJSON (stale : Nat → Nat → UInt8) (data : Bytes) (r : ClientRequest) :
    ClientRequest × Bool := unmarshalStruct requestFields stale data r

/-- `json.Marshal(r)` for `r ClientRequest`. (A nil `BlindElement` would be written as `null`; an empty one is
written as `""`. Both are read as an empty slice: `Verif.Model.JsonNil`.) -/
def ClientRequest.marshalJSON (r : ClientRequest) : Bytes :=
  encObject [(ascii "version", natDec r.version.toNat), (ascii "bucketID", quote r.bucketID),
    (ascii "blindElement", encBytes r.blindElement)]

/-- common.go:44-51: the struct tags, for a struct that contains a `Config`. -/
def configFields {T : Type} (get : T → Config) (put : T → Config → T) : List (JField T) :=
  let u16 (name : GoString) (g : Config → UInt16) (p : Config → UInt16 → Config) : JField T :=
    ⟨name, fun _ v t => let x := setU16 v (g (get t)); (put t (p (get t) x.1), x.2)⟩
  [u16 (ascii "version") (·.version) (fun c x => { c with version := x }),
   ⟨ascii "bucketIDBitSize", fun _ v t =>
      let x := setInt v (get t).bucketIDBitSize; (put t { get t with bucketIDBitSize := x.1 }, x.2)⟩,
   u16 (ascii "bucketHasher") (·.bucketHasherID) (fun c x => { c with bucketHasherID := x }),
   u16 (ascii "slowHasher") (·.slowHasherID) (fun c x => { c with slowHasherID := x }),
   u16 (ascii "bucketEncryptor") (·.bucketEncryptorID) (fun c x => { c with bucketEncryptorID := x }),
   u16 (ascii "oprfSuite") (·.oprfSuite) (fun c x => { c with oprfSuite := x })]

/-- The zero value of `Config`. -/
def Config.zero : Config := ⟨0, 0, 0, 0, 0, 0⟩

/-- `json.Unmarshal(data, &c)` for `c Config`. -/
def Config.unmarshalJSON (stale : Nat → Nat → UInt8) (data : Bytes) (c : Config) : Config × Bool :=
  unmarshalStruct (configFields id (fun _ c => c)) stale data c

/-- `json.NewDecoder(r).Decode(&c)` for `c Config`. -/
def Config.decodeJSON (stale : Nat → Nat → UInt8) (data : Bytes) (c : Config) : Config × Bool :=
  decodeStruct (configFields id (fun _ c => c)) stale data c

/-- The members of a `Config`. -/
def Config.members (c : Config) : List (GoString × Bytes) :=
  [(ascii "version", natDec c.version.toNat), (ascii "bucketIDBitSize", intDec c.bucketIDBitSize),
   (ascii "bucketHasher", natDec c.bucketHasherID.toNat), (ascii "slowHasher", natDec c.slowHasherID.toNat),
   (ascii "bucketEncryptor", natDec c.bucketEncryptorID.toNat),
   (ascii "oprfSuite", natDec c.oprfSuite.toNat)]

/-- `json.Marshal(c)` for `c Config` or `*Config`. -/
def Config.marshalJSON (c : Config) : Bytes := encObject c.members

/-- server.go:41-44 -/
structure AuxServerConfig extends Config where
  privateKey : Bytes

/-- server.go:41-44: the struct tags; the embedded `Config` contributes its fields. -/
def auxFields : List (JField AuxServerConfig) :=
  configFields (fun a : AuxServerConfig => a.toConfig) (fun a c => { a with toConfig := c }) ++
  [⟨ascii "privateKey", fun stale v a =>
      let x := setBytes stale v a.privateKey; ({ a with privateKey := x.1 }, x.2)⟩]

/-- server.go:47-56, through `json.Marshal(&cfg)`. `PrivateKey.Serialize` does not fail on a valid key. -/
def ServerConfig.marshalJSON (E : Ext) (c : ServerConfig) : Bytes :=
  encObject (c.toConfig.members ++ [(ascii "privateKey", encBytes (E.serKey c.privateKey))])

/-- server.go:59-70, through `json.Unmarshal(data, &cfg)`. The result on success. -/
def ServerConfig.unmarshalJSON (E : Ext) (stale : Nat → Nat → UInt8) (data : Bytes) : Res ServerConfig :=
  let aux := unmarshalStruct auxFields stale data
    { toConfig := Config.zero, privateKey := [] }
  if aux.2 then .err .json
  else
    match E.deKey aux.1.oprfSuite aux.1.privateKey with
    | none => .err .oprfKey
    | some k => .ok { toConfig := aux.1.toConfig, privateKey := k }

/-- server.go:165-169: the struct tags. -/
def responseFields : List (JField ServerResponse) :=
  [⟨ascii "version", fun _ v r => let x := setU32 v r.version; ({ r with version := x.1 }, x.2)⟩,
   ⟨ascii "evaluatedElement", fun stale v r =>
      let x := setBytes stale v r.evaluatedElement; ({ r with evaluatedElement := x.1 }, x.2)⟩,
   ⟨ascii "bucketContents", fun stale v r =>
      let x := setBytes stale v r.bucketContents; ({ r with bucketContents := x.1 }, x.2)⟩]

/-- `json.Unmarshal(data, &r)` for `r ServerResponse`. (`encoding/json` does not use `UnmarshalBinary`.) -/
def ServerResponse.unmarshalJSON (stale : Nat → Nat → UInt8) (data : Bytes) (r : ServerResponse) :
    ServerResponse × Bool := unmarshalStruct responseFields stale data r

/-- `json.Marshal(r)` for `r ServerResponse` or `*ServerResponse`. (`encoding/json` does not use `MarshalBinary`. A nil
slice would be written as `null`, an empty one is written as `""`; both are read as an empty slice: `Verif.Model.JsonNil`.) -/
def ServerResponse.marshalJSON (r : ServerResponse) : Bytes :=
  encObject [(ascii "version", natDec r.version.toNat), (ascii "evaluatedElement", encBytes r.evaluatedElement),
    (ascii "bucketContents", encBytes r.bucketContents)]

end Migp
