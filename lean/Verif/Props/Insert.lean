import Verif.Lemmas.Insert
import Verif.Example.Ext
/-!
# C43-C45, C31: `insert`
-/
namespace Migp.Props
open Migp.Mutator Migp.Spec

variable {E : Ext} {cfg : ServerConfig} {s : Server}

/-- The ciphertexts of a list of credentials. -/
theorem map_encrypt_ok (hs : NewServer E cfg = .ok s) (xs : List Stored)
    (h : ∀ x ∈ xs, x.flag.toNat ≤ 3 ∧ x.username.length ≤ 65536 ∧ x.password.length ≤ 65536 ∧
      x.metadata.length ≤ 8160) (ht : Spec.tweak s.suite s.privateKey ≠ 0) :
    xs.map (fun x => s.encryptBucketEntry E x.username x.password x.flag x.metadata)
      = (xs.map (storedBytes E cfg s)).map Res.ok := by
  rw [List.map_map]
  apply List.map_congr_left
  intro x hx
  obtain ⟨h1, h2, h3, h4⟩ := h x hx
  exact encryptBucketEntry_ok hs _ _ _ _ h1 h2 h3 ht h4

theorem mem_stored {r : Record} {vs : List Bytes} {x : Stored} (h : x ∈ r.stored vs) :
    x.username = r.username ∧ x.metadata = r.metadata ∧ x.flag.toNat ≤ 3 ∧
      (x.password = r.password ∨ x.password ∈ vs ∨ x.password = []) := by
  unfold Record.stored at h
  simp only [List.mem_append, List.mem_singleton, List.mem_map] at h
  rcases h with (rfl | ⟨v, hv, rfl⟩) | h
  · exact ⟨rfl, rfl, by simp only [UInt8.toNat_ofNat]; decide, .inl rfl⟩
  · exact ⟨rfl, rfl, by simp only [UInt8.toNat_ofNat]; decide, .inr (.inl hv)⟩
  · split at h
    · obtain rfl := List.mem_singleton.mp h
      exact ⟨rfl, rfl, by simp only [UInt8.toNat_ofNat]; decide, .inr (.inr rfl)⟩
    · cases h

theorem stored_bounds {r : Record} {vs : List Bytes} (h : Storable cfg s r vs) :
    ∀ x ∈ r.stored vs, x.flag.toNat ≤ 3 ∧ x.username.length ≤ 65536 ∧ x.password.length ≤ 65536 ∧
      x.metadata.length ≤ 8160 := by
  intro x hx
  obtain ⟨h1, h2, h3, h4⟩ := mem_stored hx
  refine ⟨h3, by rw [h1]; exact h.hu, ?_, by rw [h2]; exact h.hm⟩
  rcases h4 with h4 | h4 | h4
  · rw [h4]; exact h.hp
  · exact h.hv _ h4
  · rw [h4]; simp

theorem storedBytes_length (x : Stored) (h : x.metadata.length ≤ 8160) :
    (storedBytes E cfg s x).length = 25 + x.metadata.length := by
  unfold storedBytes
  exact entryParts_length E _ _ _ h

/-- C43: a successful `insert` appends to the bucket of the username exactly the entry for the
breached password, one entry per variant in order, and the username entry if asked for (the list
`Record.stored`), each of them what `EncryptBucketEntry` gives and of `25 + len(metadata)` bytes, and
leaves every other bucket as it was. -/
theorem C43_insert_appends (hs : NewServer E cfg = .ok s) (r : Record) (kv kv' : KV)
    (h : insertRecord E s r kv = (kv', .ok ())) :
    ∃ (id : UInt32) (vs entries : List Bytes) (old : Bytes),
      s.bucketID E r.username = .ok id ∧
      mutate dasRules r.password r.numVariants = .ok vs ∧
      (r.stored vs).map (fun x => s.encryptBucketEntry E x.username x.password x.flag x.metadata)
        = entries.map Res.ok ∧
      entries.length = 1 + vs.length + (if r.withUsername then 1 else 0) ∧
      (∀ e ∈ entries, e.length = 25 + r.metadata.length) ∧
      kv.get (BucketIDToHex id) = .ok old ∧
      kv'.get (BucketIDToHex id) = .ok (old ++ entries.flatten) ∧
      ∀ key, key ≠ BucketIDToHex id → kv'.get key = kv.get key := by
  have ho := insertRecord_outcome hs r kv
  rw [h] at ho
  cases ho with
  | done id vs hid hst =>
    refine ⟨id, vs, (r.stored vs).map (storedBytes E cfg s), kv.store (BucketIDToHex id), hid,
      hst.hvs, map_encrypt_ok hs _ (stored_bounds hst) hst.ht, ?_, ?_, rfl, ?_, ?_⟩
    · rw [List.length_map]
      unfold Record.stored
      split <;> simp <;> omega
    · intro e he
      obtain ⟨x, hx, rfl⟩ := List.mem_map.mp he
      obtain ⟨-, h2, -⟩ := mem_stored hx
      rw [storedBytes_length x (by rw [h2]; exact hst.hm), h2]
    · unfold KV.get; rw [KV.append_same]
    · intro key hk
      unfold KV.get; rw [KV.append_other _ _ _ _ hk]

/-- C43/C31: however `insert` ends — also in a panic part-way — the store differs from what it was
only in the bucket of the username, where a prefix of the entries of the record has been appended. -/
theorem C43_prefix_always (hs : NewServer E cfg = .ok s) (r : Record) (kv kv' : KV) (res : Res Unit)
    (h : insertRecord E s r kv = (kv', res)) :
    kv' = kv ∨
    ∃ (id : UInt32) (vs : List Bytes) (n : Nat) (entries : List Bytes) (old : Bytes),
      s.bucketID E r.username = .ok id ∧
      (mutate dasRules r.password r.numVariants = .ok vs ∨
        (mutate dasRules r.password r.numVariants).IsPanic ∧ n = 1) ∧
      ((r.stored vs).take n).map
          (fun x => s.encryptBucketEntry E x.username x.password x.flag x.metadata)
        = entries.map Res.ok ∧
      kv.get (BucketIDToHex id) = .ok old ∧
      kv'.get (BucketIDToHex id) = .ok (old ++ entries.flatten) ∧
      ∀ key, key ≠ BucketIDToHex id → kv'.get key = kv.get key := by
  rcases hr : res with u | e | p
  · obtain ⟨id, vs, entries, old, h1, h2, h3, -, -, h6, h7, h8⟩ := C43_insert_appends hs r kv kv' (by
      rw [h, hr])
    exact .inr ⟨id, vs, (r.stored vs).length, entries, old, h1, .inl h2, by rw [List.take_length]; exact h3,
      h6, h7, h8⟩
  · have ho := insertRecord_outcome hs r kv
    rw [h, hr] at ho
    cases ho
    exact .inl rfl
  · -- the loop stores up to the first variant that is too long
    have ho := insertRecord_outcome hs r kv
    rw [h, hr] at ho
    cases ho with
    | panicked => exact .inl rfl
    | crashed _ id vs k hid hu hp hm ht h0 h32 hc hlen =>
      right
      exact ⟨id, vs, k + 1, ((r.stored vs).take (k + 1)).map (storedBytes E cfg s),
        kv.store (BucketIDToHex id), hid, hc.elim (fun x => .inr ⟨x.2.2, by rw [x.2.1]⟩) (fun x => .inl x.1),
        map_encrypt_ok hs _ (by
          intro x hx
          obtain ⟨h1, h2, h3, -⟩ := mem_stored (List.mem_of_mem_take hx)
          exact ⟨h3, by rw [h1]; exact hu, hlen x hx, by rw [h2]; exact hm⟩) ht,
        rfl, by unfold KV.get; rw [KV.append_same],
        fun key hk => by unfold KV.get; rw [KV.append_other _ _ _ _ hk]⟩

/-- C45: what a crash in the middle of an `insert` leaves in the store: nothing, if a length or the bit size is to blame;
otherwise the entry of the breached password and, if a variant is too long, the entries of the variants before the first such one. -/
theorem C45_crash_stores (hs : NewServer E cfg = .ok s) (r : Record) (kv kv' : KV) (q : Panic)
    (h : insertRecord E s r kv = (kv', .panic q)) :
    (kv' = kv ∧ (65536 < r.username.length ∨ 65536 < r.password.length ∨ cfg.bucketIDBitSize < 0 ∨
      32 < cfg.bucketIDBitSize)) ∨
    ∃ (id : UInt32) (stored : List Stored) (entries : List Bytes) (old : Bytes),
      s.bucketID E r.username = .ok id ∧
      ((mutate dasRules r.password r.numVariants).IsPanic ∧ stored = [⟨r.username, r.password, 1, r.metadata⟩] ∨
        ∃ fit v rest, mutate dasRules r.password r.numVariants = .ok (fit ++ v :: rest) ∧
          (∀ x ∈ fit, x.length ≤ 65536) ∧ 65536 < v.length ∧
          stored = ⟨r.username, r.password, 1, r.metadata⟩ :: fit.map (fun x => ⟨r.username, x, 2, r.metadata⟩)) ∧
      stored.map (fun x => s.encryptBucketEntry E x.username x.password x.flag x.metadata) = entries.map Res.ok ∧
      kv.get (BucketIDToHex id) = .ok old ∧
      kv'.get (BucketIDToHex id) = .ok (old ++ entries.flatten) ∧
      ∀ key, key ≠ BucketIDToHex id → kv'.get key = kv.get key := by
  have ho := insertRecord_outcome hs r kv
  rw [h] at ho
  cases ho with
  | panicked _ hx => exact .inl ⟨rfl, hx⟩
  | crashed _ id vs k hid hu hp hm ht h0 h32 hc hlen =>
    right
    refine ⟨id, (r.stored vs).take (k + 1), ((r.stored vs).take (k + 1)).map (storedBytes E cfg s),
      kv.store (BucketIDToHex id), hid, ?_, map_encrypt_ok hs _ (by
        intro x hx
        obtain ⟨h1, h2, h3, -⟩ := mem_stored (List.mem_of_mem_take hx)
        exact ⟨h3, by rw [h1]; exact hu, hlen x hx, by rw [h2]; exact hm⟩) ht,
      rfl, by unfold KV.get; rw [KV.append_same],
      fun key hk => by unfold KV.get; rw [KV.append_other _ _ _ _ hk]⟩
    rcases hc with ⟨rfl, rfl, hpn⟩ | ⟨hvs, v, hv, hl⟩
    · exact .inl ⟨hpn, by rw [stored_take r [] 0 (Nat.le_refl _)]; rfl⟩
    · obtain ⟨hkl, hv⟩ := List.getElem?_eq_some_iff.mp hv
      have hst := stored_take r vs k (Nat.le_of_lt hkl)
      refine .inr ⟨vs.take k, v, vs.drop (k + 1), ?_, fun x hx => ?_, hl, hst⟩
      · rw [hvs, ← hv, List.getElem_cons_drop, List.take_append_drop]
      · refine hlen ⟨r.username, x, 2, r.metadata⟩ ?_
        rw [hst]
        exact List.mem_cons_of_mem _ (List.mem_map.mpr ⟨x, hx, rfl⟩)

/-- C31: inserting a record, however it ends, changes no bucket but that of its username. -/
theorem C31_other_buckets (hs : NewServer E cfg = .ok s) (r : Record) (kv kv' : KV) (res : Res Unit)
    (h : insertRecord E s r kv = (kv', res)) (key : GoString)
    (hk : ∀ id, s.bucketID E r.username = .ok id → key ≠ BucketIDToHex id) :
    kv'.get key = kv.get key := by
  rcases C43_prefix_always hs r kv kv' res h with rfl | ⟨id, vs, n, es, old, h1, -, -, -, -, h5⟩
  · rfl
  · exact h5 key (hk id h1)

/-- C44: an `insert` that returns an error has stored nothing. -/
theorem C44_error_stores_nothing (hs : NewServer E cfg = .ok s) (r : Record) (kv kv' : KV) (e : Err)
    (h : insertRecord E s r kv = (kv', .err e)) : kv' = kv := by
  have ho := insertRecord_outcome hs r kv
  rw [h] at ho
  cases ho
  rfl

/-- C44/C45: the three outcomes in terms of the arguments. `insert` panics exactly when the bit size is
out of range, the username or the password is longer than 65536 bytes, or — provided the metadata fits
and the key does not cancel the info scalar — the number of variants is not a valid slice capacity or one of
the variants is longer than 65536 bytes. Otherwise it returns an error exactly when the metadata is longer
than 8160 bytes or the key cancels the info scalar, and succeeds in the remaining cases. -/
theorem C45_outcomes (hs : NewServer E cfg = .ok s) (r : Record) (kv : KV) :
    ((insertRecord E s r kv).2.IsPanic ↔
      (cfg.bucketIDBitSize < 0 ∨ 32 < cfg.bucketIDBitSize ∨ 65536 < r.username.length ∨
        65536 < r.password.length) ∨
      (r.metadata.length ≤ 8160 ∧ Spec.tweak s.suite s.privateKey ≠ 0 ∧
        (r.numVariants < 0 ∨ maxSliceCap < r.numVariants ∨
          ∃ vs, mutate dasRules r.password r.numVariants = .ok vs ∧ ∃ v ∈ vs, 65536 < v.length))) ∧
    ((insertRecord E s r kv).2.IsErr ↔
      (0 ≤ cfg.bucketIDBitSize ∧ cfg.bucketIDBitSize ≤ 32 ∧ r.username.length ≤ 65536 ∧
        r.password.length ≤ 65536) ∧
      (8160 < r.metadata.length ∨ Spec.tweak s.suite s.privateKey = 0)) := by
  have ho := insertRecord_outcome hs r kv
  generalize insertRecord E s r kv = out at ho
  have hpm := C37_panics_iff r.password r.numVariants
  cases ho with
  | done id vs hid hst =>
    obtain ⟨hu, hp, hm, h0, h32, ht, hvs, hv⟩ := hst
    have hrg := mutate_ok_range hvs
    constructor
    · simp only [Res.isPanic_ok, false_iff]
      rintro (h | ⟨-, -, h | h | ⟨vs', h1, v, h2, h3⟩⟩)
      · omega
      · omega
      · omega
      · rw [hvs] at h1; injection h1 with h1; subst h1
        have := hv v h2; omega
    · simp only [Res.isErr_ok, false_iff]
      rintro ⟨-, h | h⟩
      · omega
      · exact ht h
  | refused e hu hp h0 h32 hc =>
    constructor
    · simp only [Res.isPanic_err, false_iff]
      rintro (h | ⟨h1, h2, -⟩)
      · omega
      · rcases hc with hc | hc
        · exact h2 hc
        · omega
    · simp only [Res.isErr_err, true_iff]
      exact ⟨⟨h0, h32, hu, hp⟩, hc.symm⟩
  | panicked p hc =>
    constructor
    · simp only [Res.isPanic_panic, true_iff]
      left; omega
    · simp only [Res.isErr_panic, false_iff]
      rintro ⟨h, -⟩
      omega
  | crashed p id vs k hid hu hp hm ht h0 h32 hc =>
    constructor
    · simp only [Res.isPanic_panic, true_iff]
      right
      refine ⟨hm, ht, ?_⟩
      rcases hc with ⟨-, hc⟩ | ⟨h1, v, h2, h3⟩
      · rcases hpm.1.mp hc.2 with h | h
        · exact .inl h
        · exact .inr (.inl h)
      · exact .inr (.inr ⟨vs, h1, v, List.mem_of_getElem? h2, h3⟩)
    · simp only [Res.isErr_panic, false_iff]
      rintro ⟨-, h | h⟩
      · omega
      · exact ht h

/-- C45: with a sane configuration and count, passwords of at most 49152 bytes never crash `insert`. -/
theorem C45_short_passwords (hs : NewServer E cfg = .ok s) (r : Record) (kv : KV)
    (h0 : 0 ≤ cfg.bucketIDBitSize) (h32 : cfg.bucketIDBitSize ≤ 32)
    (hu : r.username.length ≤ 65536) (hp : r.password.length ≤ 49152)
    (hn : 0 ≤ r.numVariants) (hn' : r.numVariants ≤ maxSliceCap) :
    ¬ (insertRecord E s r kv).2.IsPanic := by
  rw [(C45_outcomes hs r kv).1]
  rintro (h | ⟨-, -, h | h | ⟨vs, h1, v, h2, h3⟩⟩)
  · omega
  · omega
  · omega
  · have := (C41_length _ _ _ h1 v h2).1
    omega

/-- The rules that always make a password longer. -/
def Growing (r : RDasRule) : Prop :=
  r.ruleType = ascii "i" ∧ (r.position = 0 ∨ r.position = -1) ∧ r.string1 ≠ []

instance (r : RDasRule) : Decidable (Growing r) := by unfold Growing; infer_instance

theorem growing_length (r : RDasRule) (hr : Growing r) (pw out : Bytes) (h : RuleResult r pw out) :
    pw.length < out.length := by
  obtain ⟨h1, h2, h3⟩ := hr
  have hs := List.length_pos_iff.mpr h3
  cases h with
  | i k s1 s2 =>
    dsimp only at h2 hs
    have hi : 0 ≤ fromEnd k (pw.length + 1) ∧ fromEnd k (pw.length + 1) ≤ pw.length := by
      unfold fromEnd
      rcases h2 with rfl | rfl
      · rw [if_neg (by decide)]; omega
      · rw [if_pos (by decide)]; omega
    unfold insertAt
    dsimp only
    rw [if_pos hi, List.length_append, List.length_append, List.length_take, List.length_drop]
    omega
  | c => exact absurd h1 (by dsimp only; decide)
  | d => exact absurd h1 (by dsimp only; decide)
  | s => exact absurd h1 (by dsimp only; decide)

theorem dasRules_not_growing : (dasRules.filter (fun r => ¬ Growing r)).length = 24 := by
  decide +kernel

theorem count_short (rules : List RDasRule) (pw : Bytes) (rs : List Bytes)
    (h : List.Forall₂ (fun r out => RuleResult r pw out) rules rs) :
    (rs.filter (fun v => v.length ≤ pw.length)).length
      ≤ (rules.filter (fun r => ¬ Growing r)).length := by
  induction h with
  | nil => simp
  | @cons r out rules rs hr _ ih =>
    rw [List.filter_cons, List.filter_cons]
    by_cases hg : Growing r
    · have := growing_length r hg pw out hr
      rw [if_neg (by simpa using this), if_neg (by simpa using hg)]
      exact ih
    · rw [if_pos (c := decide (¬ Growing r) = true) (by simpa using hg)]
      split <;> simp only [List.length_cons] <;> omega

/-- C45: every password of exactly 65536 bytes — accepted by `EncryptBucketEntry` — crashes `insert`
as soon as 25 variants are requested: only 24 rules do not lengthen a password. -/
theorem C45_limit_password_crashes (hs : NewServer E cfg = .ok s) (r : Record) (kv : KV)
    (hp : r.password.length = 65536) (hn : 25 ≤ r.numVariants) (hm : r.metadata.length ≤ 8160)
    (ht : Spec.tweak s.suite s.privateKey ≠ 0) : (insertRecord E s r kv).2.IsPanic := by
  rw [(C45_outcomes hs r kv).1]
  right
  refine ⟨hm, ht, ?_⟩
  by_cases hcap : maxSliceCap < r.numVariants
  · exact .inr (.inl hcap)
  · right; right
    obtain ⟨vs, hvs⟩ := (C37_panics_iff r.password r.numVariants).2.mpr (by omega)
    refine ⟨vs, hvs, ?_⟩
    by_contra hno
    push Not at hno
    obtain ⟨⟨rs, hrs, hsub⟩, -⟩ := C34_from_rules _ _ _ hvs
    have h1 := count_short _ _ _ hrs
    rw [dasRules_not_growing] at h1
    have h2 := (hsub.filter (fun v => v.length ≤ r.password.length)).length_le
    rw [List.filter_eq_self.mpr (by
      intro v hv
      have := hno v hv
      simp only [decide_eq_true_eq]
      omega)] at h2
    have h3 := C36_at_least_98 _ _ _ hvs
    omega

end Migp.Props
