import Verif.Model.Exchange
import Verif.Props.Finalize
import Verif.Props.Mutator
/-! # Lemmas on `insert` and on reachable stores -/
namespace Migp
open Props

theorem KV.ext {a b : KV} (h : ∀ k, a.store k = b.store k) : a = b := by
  cases a; cases b; congr; funext k; exact h k

theorem KV.append_append (kv : KV) (id : GoString) (a b : Bytes) :
    (kv.append id a).append id b = kv.append id (a ++ b) := by
  apply KV.ext; intro k
  simp only [KV.append]
  split <;> simp

theorem KV.append_nil (kv : KV) (id : GoString) : kv.append id [] = kv := by
  apply KV.ext; intro k
  simp only [KV.append]
  split <;> simp [*]

@[simp] theorem KV.append_same (kv : KV) (id : GoString) (a : Bytes) :
    (kv.append id a).store id = kv.store id ++ a := by simp [KV.append]

theorem KV.append_other (kv : KV) (id k : GoString) (a : Bytes) (h : k ≠ id) :
    (kv.append id a).store k = kv.store k := by simp [KV.append, h]

/-- The bytes stored for one credential. -/
def storedBytes (E : Ext) (cfg : ServerConfig) (s : Server) (x : Spec.Stored) : Bytes :=
  entryParts E (entryKey E cfg s x.username x.password) x.flag x.metadata

/-- The same as an entry with its fields. -/
def storedRaw (E : Ext) (cfg : ServerConfig) (s : Server) (x : Spec.Stored) : Spec.RawEntry :=
  ⟨Spec.keyTag E.sha256 (entryKey E cfg s x.username x.password),
   x.flag ^^^ flagPad E (entryKey E cfg s x.username x.password),
   Spec.xor x.metadata (bodyPad E (entryKey E cfg s x.username x.password) x.metadata.length)⟩

theorem storedRaw_body_length (E : Ext) (cfg : ServerConfig) (s : Server) (x : Spec.Stored)
    (h : x.metadata.length ≤ 8160) : (storedRaw E cfg s x).body.length = x.metadata.length := by
  unfold storedRaw
  rw [xor_length, bodyPad_length E _ _ h]; omega

theorem storedRaw_wf (E : Ext) (cfg : ServerConfig) (s : Server) (x : Spec.Stored)
    (h : x.metadata.length ≤ 8160) : (storedRaw E cfg s x).WF :=
  ⟨keyTag_length E _, by rw [storedRaw_body_length E cfg s x h]; omega⟩

theorem storedRaw_bytes (E : Ext) (cfg : ServerConfig) (s : Server) (x : Spec.Stored)
    (h : x.metadata.length ≤ 8160) : (storedRaw E cfg s x).bytes = storedBytes E cfg s x := by
  rw [rawEntry_bytes _ (storedRaw_wf E cfg s x h), storedRaw_body_length E cfg s x h]
  rfl

theorem storedRaw_open (E : Ext) (cfg : ServerConfig) (s : Server) (x : Spec.Stored)
    (h : x.metadata.length ≤ 8160) :
    (storedRaw E cfg s x).open E.sha256 (entryKey E cfg s x.username x.password)
      = (x.flag, x.metadata) := by
  rw [rawEntry_open, storedRaw_body_length E cfg s x h]
  unfold storedRaw
  dsimp only
  rw [xor_xor _ _ (bodyPad_length E _ _ h).symm, UInt8.xor_assoc, UInt8.xor_self, UInt8.xor_zero]

section
variable {E : Ext} {cfg : ServerConfig} {s : Server}

theorem insertVariants_ok (hs : NewServer E cfg = .ok s) (u m : Bytes) (hex : GoString)
    (vs : List Bytes) (kv : KV) (hu : u.length ≤ 65536) (hv : ∀ v ∈ vs, v.length ≤ 65536)
    (ht : Spec.tweak s.suite s.privateKey ≠ 0) (hm : m.length ≤ 8160) :
    insertVariants E s u m hex vs kv =
      (kv.append hex ((vs.map (fun v => storedBytes E cfg s ⟨u, v, 2, m⟩)).flatten), .ok ()) := by
  induction vs generalizing kv with
  | nil => simp [insertVariants, KV.append_nil]
  | cons v vs ih =>
    rw [insertVariants, encryptBucketEntry_ok hs u v MetadataSimilarPassword m (by decide) hu
      (hv v (by simp)) ht hm]
    dsimp only
    rw [ih _ (fun x hx => hv x (by simp [hx])), KV.append_append]
    rfl

/-- When some variant is too long, the loop panics there, having stored those before it. -/
theorem insertVariants_panic (hs : NewServer E cfg = .ok s) (u m : Bytes) (hex : GoString)
    (vs : List Bytes) (kv : KV) (hu : u.length ≤ 65536) (hv : ∃ v ∈ vs, 65536 < v.length)
    (ht : Spec.tweak s.suite s.privateKey ≠ 0) (hm : m.length ≤ 8160) :
    ∃ k, (∀ v ∈ vs.take k, v.length ≤ 65536) ∧ (∃ v, vs[k]? = some v ∧ 65536 < v.length) ∧ insertVariants E s u m hex vs kv =
      (kv.append hex (((vs.take k).map (fun v => storedBytes E cfg s ⟨u, v, 2, m⟩)).flatten),
        .panic .lengthOverflow) := by
  induction vs generalizing kv with
  | nil => obtain ⟨v, h, -⟩ := hv; cases h
  | cons v vs ih =>
    rw [insertVariants]
    by_cases hl : 65536 < v.length
    · rw [encryptBucketEntry_panic s u v MetadataSimilarPassword m (by decide) (.inr hl)]
      exact ⟨0, by simp, ⟨v, rfl, hl⟩, by simp [KV.append_nil]⟩
    · rw [encryptBucketEntry_ok hs u v MetadataSimilarPassword m (by decide) hu (by omega) ht hm]
      dsimp only
      obtain ⟨x, hx, hxl⟩ := hv
      have hx' : x ∈ vs := by
        rcases List.mem_cons.mp hx with rfl | h
        · exact absurd hxl hl
        · exact h
      obtain ⟨k, hk0, hk1, hk⟩ := ih (kv.append hex (entryParts E (entryKey E cfg s u v) MetadataSimilarPassword m))
        ⟨x, hx', hxl⟩
      refine ⟨k + 1, ?_, hk1, ?_⟩
      · intro y hy
        rw [List.take_succ_cons] at hy
        rcases List.mem_cons.mp hy with rfl | h
        · omega
        · exact hk0 y h
      rw [hk, KV.append_append]
      rfl

theorem insertUsername_ok (hs : NewServer E cfg = .ok s) (u m : Bytes) (hex : GoString) (w : Bool)
    (kv : KV) (hu : u.length ≤ 65536)
    (ht : Spec.tweak s.suite s.privateKey ≠ 0) (hm : m.length ≤ 8160) :
    insertUsername E s u m hex w kv =
      (kv.append hex (((if w then [(⟨u, [], 3, m⟩ : Spec.Stored)] else []).map
        (storedBytes E cfg s)).flatten), .ok ()) := by
  unfold insertUsername
  cases w
  · simp [KV.append_nil]
  · rw [if_pos rfl, encryptBucketEntry_ok hs u [] MetadataBreachedUsername m (by decide) hu (by simp)
      ht hm]
    simp only [if_true, List.map_cons, List.map_nil, List.flatten_cons, List.flatten_nil,
      List.append_nil]
    rfl

theorem bucketID_cases (hs : NewServer E cfg = .ok s) (u : Bytes) :
    (u.length ≤ 65536 ∧ 0 ≤ cfg.bucketIDBitSize ∧ cfg.bucketIDBitSize ≤ 32 ∧
      ∃ id, s.bucketID E u = .ok id) ∨
    ((65536 < u.length ∨ cfg.bucketIDBitSize < 0 ∨ 32 < cfg.bucketIDBitSize) ∧
      (s.bucketID E u).IsPanic) := by
  by_cases h : 65536 < u.length ∨ cfg.bucketIDBitSize < 0 ∨ 32 < cfg.bucketIDBitSize
  · right
    refine ⟨h, ?_⟩
    rw [server_bucketID_eq hs]
    exact bucketID_panic E u _ h
  · left
    refine ⟨by omega, by omega, by omega, ?_⟩
    rw [server_bucketID_eq hs]
    obtain ⟨id, h, -⟩ := bucketID_ok E u (by omega) cfg.bucketIDBitSize (by omega) (by omega)
    exact ⟨id, h⟩

/-- A record that can be stored. -/
structure Storable (cfg : ServerConfig) (s : Server) (r : Spec.Record) (vs : List Bytes) : Prop where
  hu : r.username.length ≤ 65536
  hp : r.password.length ≤ 65536
  hm : r.metadata.length ≤ 8160
  h0 : 0 ≤ cfg.bucketIDBitSize
  h32 : cfg.bucketIDBitSize ≤ 32
  ht : Spec.tweak s.suite s.privateKey ≠ 0
  hvs : Mutator.mutate Mutator.dasRules r.password r.numVariants = .ok vs
  hv : ∀ v ∈ vs, v.length ≤ 65536

/-- The four ways an insert can end. -/
inductive InsertOutcome (E : Ext) (cfg : ServerConfig) (s : Server) (r : Spec.Record) (kv : KV) :
    KV × Res Unit → Prop
  /-- everything is stored -/
  | done (id : UInt32) (vs : List Bytes) : s.bucketID E r.username = .ok id →
      Storable cfg s r vs →
      InsertOutcome E cfg s r kv
        (kv.append (BucketIDToHex id) (((r.stored vs).map (storedBytes E cfg s)).flatten), .ok ())
  /-- nothing is stored, and an error returned -/
  | refused (e : Err) : r.username.length ≤ 65536 → r.password.length ≤ 65536 →
      0 ≤ cfg.bucketIDBitSize → cfg.bucketIDBitSize ≤ 32 →
      (Spec.tweak s.suite s.privateKey = 0 ∨ 8160 < r.metadata.length) →
      InsertOutcome E cfg s r kv (kv, .err e)
  /-- nothing is stored, and a panic -/
  | panicked (p : Panic) : (65536 < r.username.length ∨ 65536 < r.password.length ∨
        cfg.bucketIDBitSize < 0 ∨ 32 < cfg.bucketIDBitSize) →
      InsertOutcome E cfg s r kv (kv, .panic p)
  /-- a panic after some entries have been stored -/
  | crashed (p : Panic) (id : UInt32) (vs : List Bytes) (k : Nat) :
      s.bucketID E r.username = .ok id →
      r.username.length ≤ 65536 → r.password.length ≤ 65536 → r.metadata.length ≤ 8160 →
      Spec.tweak s.suite s.privateKey ≠ 0 → 0 ≤ cfg.bucketIDBitSize → cfg.bucketIDBitSize ≤ 32 →
      ((vs = [] ∧ k = 0 ∧ (Mutator.mutate Mutator.dasRules r.password r.numVariants).IsPanic) ∨
        (Mutator.mutate Mutator.dasRules r.password r.numVariants = .ok vs ∧
          ∃ v, vs[k]? = some v ∧ 65536 < v.length)) →
      (∀ x ∈ (r.stored vs).take (k + 1), x.password.length ≤ 65536) →
      InsertOutcome E cfg s r kv
        (kv.append (BucketIDToHex id)
          ((((r.stored vs).take (k + 1)).map (storedBytes E cfg s)).flatten), .panic p)

theorem stored_take (r : Spec.Record) (vs : List Bytes) (k : Nat) (hk : k ≤ vs.length) :
    (r.stored vs).take (k + 1) = ⟨r.username, r.password, 1, r.metadata⟩ ::
      (vs.take k).map (fun v => ⟨r.username, v, 2, r.metadata⟩) := by
  unfold Spec.Record.stored
  rw [List.append_assoc, List.singleton_append, List.take_succ_cons]
  congr 1
  rw [List.take_append_of_le_length (by simpa using hk), List.map_take]

theorem insertRecord_outcome (hs : NewServer E cfg = .ok s) (r : Spec.Record) (kv : KV) :
    InsertOutcome E cfg s r kv (insertRecord E s r kv) := by
  unfold insertRecord insert
  rcases bucketID_cases hs r.username with ⟨hu, h0, h32, id, hid⟩ | ⟨hc, p, hp⟩
  · rw [hid]
    dsimp only
    by_cases hp : 65536 < r.password.length
    · rw [encryptBucketEntry_panic s _ _ MetadataBreachedPassword _ (by decide) (.inr hp)]
      exact .panicked _ (by omega)
    · by_cases ht : Spec.tweak s.suite s.privateKey = 0
      · rw [encryptBucketEntry_zero hs _ _ MetadataBreachedPassword _ (by decide) hu (by omega) ht]
        exact .refused _ hu (by omega) h0 h32 (.inl ht)
      · by_cases hm : 8160 < r.metadata.length
        · rw [encryptBucketEntry_long hs _ _ MetadataBreachedPassword _ (by decide) hu (by omega) ht hm]
          exact .refused _ hu (by omega) h0 h32 (.inr hm)
        · rw [encryptBucketEntry_ok hs _ _ MetadataBreachedPassword _ (by decide) hu (by omega) ht
            (by omega)]
          dsimp only
          cases hvs : Mutator.mutate Mutator.dasRules r.password r.numVariants with
          | err e =>
            exfalso
            have := C37_panics_iff r.password r.numVariants
            rw [hvs] at this
            simp only [Res.isPanic_err, Res.isOk_err, false_iff] at this
            omega
          | panic p =>
            dsimp only
            have := InsertOutcome.crashed (kv := kv) (E := E) p id [] 0 hid hu (by omega) (by omega) ht
              h0 h32 (.inl ⟨rfl, rfl, by rw [hvs]; exact ⟨_, rfl⟩⟩) (by
                rw [stored_take r [] 0 (Nat.le_refl _)]
                intro x hx
                simp only [List.take_nil, List.map_nil, List.mem_singleton] at hx
                subst hx; dsimp only; omega)
            rw [stored_take r [] 0 (Nat.le_refl _)] at this
            simp only [List.take_nil, List.map_nil, List.map_cons, List.flatten_cons, List.flatten_nil,
              List.append_nil] at this
            exact this
          | ok vs =>
            dsimp only
            by_cases hv : ∃ v ∈ vs, 65536 < v.length
            · obtain ⟨k, hk0, hk1, hk⟩ := insertVariants_panic hs r.username r.metadata (BucketIDToHex id) vs
                (kv.append (BucketIDToHex id) (entryParts E (entryKey E cfg s r.username r.password)
                  MetadataBreachedPassword r.metadata)) hu hv ht (by omega)
              rw [hk]
              dsimp only
              have hkl : k ≤ vs.length := by
                obtain ⟨v, h, -⟩ := hk1
                exact Nat.le_of_lt (List.getElem?_eq_some_iff.mp h).1
              have := InsertOutcome.crashed (kv := kv) (E := E) .lengthOverflow id vs k
                hid hu (by omega) (by omega) ht h0 h32 (.inr ⟨hvs, hk1⟩) (by
                  rw [stored_take r vs _ hkl]
                  intro x hx
                  rcases List.mem_cons.mp hx with rfl | hx
                  · dsimp only; omega
                  · obtain ⟨v, hv, rfl⟩ := List.mem_map.mp hx
                    exact hk0 v hv)
              rw [stored_take r vs _ hkl] at this
              rw [KV.append_append]
              rw [List.map_cons, List.map_map, List.flatten_cons] at this
              exact this
            · have hv' : ∀ v ∈ vs, v.length ≤ 65536 := by
                intro v h; by_contra hc; exact hv ⟨v, h, by omega⟩
              rw [insertVariants_ok hs r.username r.metadata _ vs _ hu hv' ht (by omega)]
              dsimp only
              rw [insertUsername_ok hs _ _ _ _ _ hu ht (by omega), KV.append_append, KV.append_append]
              have := InsertOutcome.done (kv := kv) (E := E) id vs hid
                ⟨hu, by omega, by omega, h0, h32, ht, hvs, hv'⟩
              unfold Spec.Record.stored at this
              rw [List.append_assoc, List.map_append, List.map_append, List.flatten_append,
                List.flatten_append, List.map_map, List.map_cons, List.map_nil, List.flatten_cons,
                List.flatten_nil, List.append_nil] at this
              exact this
  · rw [hp]
    exact .panicked _ (by omega)

end

end Migp
