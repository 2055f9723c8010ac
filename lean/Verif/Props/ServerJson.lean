import Verif.Props.JsonDecode
import Verif.Spec.ByteField
/-!
# C63: what a server configuration is decoded to, exactly
-/
namespace Migp.Props
open Json Spec

/-! ## Fields of bytes, whatever the arrays -/

theorem setByteElems_length (stale : Nat → UInt8) (old : Bytes) (es : List JVal) (i : Nat) :
    (setByteElems stale old i es).1.length = es.length := by
  induction es generalizing i with
  | nil => rfl
  | cons e es ih =>
    rw [setByteElems]
    exact congrArg (· + 1) (ih (i + 1))

theorem setByteElems_get (stale : Nat → UInt8) (old : Bytes) (es : List JVal) (i j : Nat) (e : JVal) (x : UInt8)
    (he : es[j]? = some e) (hx : (setByteElems stale old i es).1[j]? = some x) :
    (∀ n, IsUint 255 e n → x.toNat = n) ∧
    ((¬ ∃ n, IsUint 255 e n) → ∀ y, old[i + j]? = some y → x = y) := by
  induction es generalizing i j with
  | nil => cases he
  | cons e' es ih =>
    rw [setByteElems] at hx
    dsimp only at hx
    cases j with
    | zero =>
      rw [List.getElem?_cons_zero] at he hx
      cases he
      cases hx
      refine ⟨fun n hn => ?_, fun hn y hy => ?_⟩
      · rw [setUint_acc hn]
        have : n ≤ 255 := by obtain ⟨_, _, _, h⟩ := hn; exact h
        rw [UInt8.toNat_ofNat', Nat.mod_eq_of_lt (by omega)]
      · rw [(setUint_rej hn _).1, show old[i]? = some y from hy]
        simp
    | succ j =>
      rw [List.getElem?_cons_succ] at he hx
      have := ih (i + 1) j he hx
      rwa [show i + 1 + j = i + (j + 1) by omega] at this

theorem setBytes_step (st : Nat → UInt8) (v : JVal) (old : Bytes) : ByteStep v old (setBytes st v old).1 := by
  by_cases h : ∃ b, IsBytes v b
  · obtain ⟨b, hb⟩ := h
    rw [obeys_bytes.take st v old b hb]
    exact .inl hb
  · cases v with
    | arr es =>
      refine .inr (.inl ⟨es, rfl, setByteElems_length st old es 0, fun i e x he hx => ?_⟩)
      have := setByteElems_get st old es 0 i e x he hx
      rwa [Nat.zero_add] at this
    | _ =>
      refine .inr (.inr ⟨h, fun es h' => (by cases h'), obeys_bytes.keep st _ old ?_ h⟩)
      rintro ⟨es, h', _⟩
      cases h'

theorem setMembers_bytes {T : Type} {fields : List (JField T)} (hd : Distinct fields) {f : JField T}
    (hf : f ∈ fields) (hn : ∀ c ∈ f.name, c.toNat < 128) (get : T → Bytes)
    (hget : ∀ st v t, get (f.set st v t).1 = (setBytes st v (get t)).1)
    (hother : ∀ g ∈ fields, g.name ≠ f.name → ∀ st v t, get (g.set st v t).1 = get t)
    (stale : Nat → Nat → UInt8) (ms : List (GoString × JVal)) (t : T) :
    ByteField f.name ms (get t) (get (setMembers fields stale ms t).1) := by
  induction ms generalizing t with
  | nil => exact .done
  | cons m ms ih =>
    obtain ⟨k, v⟩ := m
    rw [setMembers]
    cases hl : lookupField fields k with
    | none =>
      dsimp only
      refine .other (fun hs => ?_) (ih t)
      have := (lookupField_iff hd k f).mpr ⟨hf, (sameName_iff f.name hn k).mp hs⟩
      rw [hl] at this
      cases this
    | some g =>
      dsimp only
      obtain ⟨hg, he⟩ := (lookupField_iff hd k g).mp hl
      have h := ih (g.set (stale ms.length) v t).1
      by_cases hgf : g.name = f.name
      · have : g = f := hd.unique hg hf (by rw [hgf])
        subst this
        refine .this ((sameName_iff g.name hn k).mpr he) ?_ h
        rw [hget]
        exact setBytes_step _ v _
      · rw [hother g hg hgf] at h
        refine .other (fun hs => hgf ?_) h
        have := (lookupField_iff hd k f).mpr ⟨hf, (sameName_iff f.name hn k).mp hs⟩
        rw [hl] at this
        exact congrArg JField.name (Option.some.inj this)

/-- C63: what becomes of the blinded element of a request for every object, whatever arrays are in it. -/
theorem C63_request_bytes (stale : Nat → Nat → UInt8) (data : Bytes) (r0 : ClientRequest)
    (ms : List (GoString × JVal)) (h : IsDocument data (.obj ms)) :
    ByteField (ascii "blindElement") ms r0.blindElement (ClientRequest.unmarshalJSON stale data r0).1.blindElement := by
  have hu : ClientRequest.unmarshalJSON stale data r0 = setMembers requestFields stale ms r0 := by
    unfold ClientRequest.unmarshalJSON unmarshalStruct
    rw [(parse_iff _ _).mpr h]
    rfl
  rw [hu]
  refine setMembers_bytes (f := requestFields[2]) requestFields_distinct (List.getElem_mem _) (by decide)
    (fun r : ClientRequest => r.blindElement) (fun _ _ _ => rfl) ?_ stale ms r0
  intro g hg hne
  fin_cases hg
  · exact fun _ _ _ => rfl
  · exact fun _ _ _ => rfl
  · exact absurd rfl hne


/-- C63: what becomes of an object given as a server configuration: an error if a member for a field of the public configuration is
ill-typed or the member for the key is nothing that can be read as bytes; otherwise the numbers are those of the last acceptable
members, and the outcome is what `Deserialize` makes, for the suite in the document, of the bytes the members make of
`privateKey`, starting from none: those of the last acceptable member, unless arrays with `null` in them are involved. -/
theorem C63_server_config_exact (E : Ext) (stale : Nat → Nat → UInt8) (data : Bytes) (ms : List (GoString × JVal))
    (h : IsDocument data (.obj ms)) :
    ((ConfigIllTyped ms ∨ ∃ m ∈ ms, SameName (ascii "privateKey") m.1 ∧ NotBytes m.2) →
      ServerConfig.unmarshalJSON E stale data = .err .json) ∧
    (¬ (ConfigIllTyped ms ∨ ∃ m ∈ ms, SameName (ascii "privateKey") m.1 ∧ NotBytes m.2) →
      ∃ c k, ConfigFields ms Config.zero c ∧ ByteField (ascii "privateKey") ms [] k ∧
        ((∀ m ∈ ms, SameName (ascii "privateKey") m.1 → ¬ MixedArray m.2) →
          LastWins (ascii "privateKey") IsBytes ms [] k) ∧
        ServerConfig.unmarshalJSON E stale data =
          match E.deKey c.oprfSuite k with
          | none => .err .oprfKey
          | some key => .ok { toConfig := c, privateKey := key }) := by
  let a0 : AuxServerConfig := { toConfig := Config.zero, privateKey := [] }
  have h1 : ConfigFields ms Config.zero (setMembers auxFields stale ms a0).1.toConfig :=
    setMembers_configFields (fun a : AuxServerConfig => a.toConfig) (fun a c => { a with toConfig := c })
      (fun _ _ => rfl) _ auxFields_distinct
      (fun f hf => by rw [List.mem_singleton.mp hf]; exact fun _ _ _ => rfl) stale ms a0
  have h2 : (setMembers auxFields stale ms a0).2 = true ↔ ConfigIllTyped ms ∨
      ∃ m ∈ ms, ∃ f ∈ (_ : List (JField AuxServerConfig)), SameName f.name m.1 ∧ NotBytes m.2 :=
    setMembers_configErr (fun a : AuxServerConfig => a.toConfig) (fun a c => { a with toConfig := c }) _
      auxFields_distinct
      (fun f hf => by
        rw [List.mem_singleton.mp hf]
        show ∀ c ∈ ascii "privateKey", c.toNat < 128
        decide) NotBytes
      (fun f hf => by
        rw [List.mem_singleton.mp hf]
        exact fun st v t => obeys_bytes.err st v t.privateKey) stale ms a0
  have h3 : (∀ m ∈ ms, SameName (ascii "privateKey") m.1 → ¬ MixedArray m.2) →
      LastWins (ascii "privateKey") IsBytes ms [] (setMembers auxFields stale ms a0).1.privateKey := by
    intro hreg
    refine setMembers_field (f := auxFields[6]) auxFields_distinct (List.getElem_mem _)
      (by show ∀ c ∈ ascii "privateKey", c.toNat < 128; decide)
      (fun a : AuxServerConfig => a.privateKey) obeys_bytes (fun _ _ _ => rfl) ?_ stale ms hreg a0
    intro g hg hne
    fin_cases hg
    · exact fun _ _ _ => rfl
    · exact fun _ _ _ => rfl
    · exact fun _ _ _ => rfl
    · exact fun _ _ _ => rfl
    · exact fun _ _ _ => rfl
    · exact fun _ _ _ => rfl
    · exact absurd rfl hne
  have h4 : ByteField (ascii "privateKey") ms [] (setMembers auxFields stale ms a0).1.privateKey := by
    refine setMembers_bytes (f := auxFields[6]) auxFields_distinct (List.getElem_mem _)
      (by show ∀ c ∈ ascii "privateKey", c.toNat < 128; decide)
      (fun a : AuxServerConfig => a.privateKey) (fun _ _ _ => rfl) ?_ stale ms a0
    intro g hg hne
    fin_cases hg
    · exact fun _ _ _ => rfl
    · exact fun _ _ _ => rfl
    · exact fun _ _ _ => rfl
    · exact fun _ _ _ => rfl
    · exact fun _ _ _ => rfl
    · exact fun _ _ _ => rfl
    · exact absurd rfl hne
  have hm : ServerConfig.unmarshalJSON E stale data =
      if (setMembers auxFields stale ms a0).2 then .err .json
      else
        match E.deKey (setMembers auxFields stale ms a0).1.toConfig.oprfSuite (setMembers auxFields stale ms a0).1.privateKey with
        | none => .err .oprfKey
        | some k => .ok { toConfig := (setMembers auxFields stale ms a0).1.toConfig, privateKey := k } := by
    unfold ServerConfig.unmarshalJSON unmarshalStruct
    rw [(parse_iff _ _).mpr h]
    rfl
  have h2' : (setMembers auxFields stale ms a0).2 = true ↔
      (ConfigIllTyped ms ∨ ∃ m ∈ ms, SameName (ascii "privateKey") m.1 ∧ NotBytes m.2) := by
    rw [h2]
    refine or_congr Iff.rfl ⟨?_, ?_⟩
    · rintro ⟨m, g1, f, g2, g3, g4⟩
      rw [List.mem_singleton.mp g2] at g3
      exact ⟨m, g1, g3, g4⟩
    · rintro ⟨m, g1, g3, g4⟩
      exact ⟨m, g1, _, List.mem_singleton.mpr rfl, g3, g4⟩
  refine ⟨fun hi => ?_, fun hi => ⟨_, _, h1, h4, h3, ?_⟩⟩
  · rw [hm, if_pos (h2'.mpr hi)]
  · rw [hm, if_neg (fun he => hi (h2'.mp he))]

/-- C63: anything else than an object is refused as a server configuration: not a JSON document, or of another kind, is a JSON error,
and `null` leaves everything zero, so that the outcome is what `Deserialize` makes of no bytes for suite 0. -/
theorem C63_server_config_other (E : Ext) (stale : Nat → Nat → UInt8) (data : Bytes) (h : ∀ ms, ¬ IsDocument data (.obj ms)) :
    (¬ IsDocument data .null → ServerConfig.unmarshalJSON E stale data = .err .json) ∧
    (IsDocument data .null → ServerConfig.unmarshalJSON E stale data =
      match E.deKey 0 [] with
      | none => .err .oprfKey
      | some key => .ok { toConfig := Config.zero, privateKey := key }) := by
  rw [← parse_iff]
  unfold ServerConfig.unmarshalJSON unmarshalStruct
  cases hp : parse data with
  | none => exact ⟨fun _ => rfl, fun h => by cases h⟩
  | some v =>
    cases v with
    | obj ms => exact absurd ((parse_iff _ _).mp hp) (h ms)
    | null => exact ⟨fun h => absurd rfl h, fun _ => rfl⟩
    | _ => exact ⟨fun _ => rfl, fun h => by simp at h⟩

/-- C63_request_bytes: an array with `null` in it, over an earlier value: the byte at that place stays, and no error is
reported. -/
theorem C63_null_example :
    ClientRequest.unmarshalJSON (fun _ _ => 0)
      (ascii "{\"blindElement\":[1,2,3], \"blindElement\":[7,null,9]}") ⟨7, [], []⟩ = (⟨7, [], [7, 2, 9]⟩, false) := by
  decide +kernel

end Migp.Props
