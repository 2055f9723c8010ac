import Verif.Props.History
import Verif.Example.Server
/-!
# C30: earlier entries shadow later ones
-/
namespace Migp.Props
open Migp.Mutator Migp.Spec

variable {E : Ext} {cfg : ServerConfig} {s : Server} {c : Client}

/-- Entries stored for one username: if none of the first `pre` has the tag of the queried password
and the next one, `x`, is for that password, `x` is what the query returns. -/
theorem exchange_shadow (hc : NewClient E cfg.toConfig = .ok c) (hs : NewServer E cfg = .ok s)
    {kv : KV} {db pre post : List Stored} {x : Stored} (h : History E s kv db)
    (hdb : db = pre ++ x :: post) (r : ZMod c.suite.q) (hr : r ≠ 0)
    (hne : ∀ y ∈ pre, ¬ (y.username = x.username ∧ y.password = x.password) ∧
      ¬ TagCollision E s y x.username x.password) :
    exchange E c s kv x.username x.password r =
      .ret (MetadataType.toBreachStatus x.flag) (some x.metadata) none := by
  obtain ⟨-, g2, g3⟩ := history_invariant hs h
  have hx : x ∈ db := by rw [hdb]; simp
  obtain ⟨hf, id, hid⟩ := g2 x hx
  have hb := fits_range hs hid
  have ht := g3 (List.ne_nil_of_mem hx)
  obtain ⟨id', hid', he⟩ := exchange_eq hc hs h x.username x.password r hf.2.1 hf.2.2.1 hb.1 hb.2 ht hr
  rw [he, hdb, List.find?_append]
  have h1 : pre.find? (fun y => inBucket E s (BucketIDToHex id') y &&
      decide (keyTag E.sha256 (entryKey E cfg s y.username y.password) =
        keyTag E.sha256 (entryKey E cfg s x.username x.password))) = none := by
    apply List.find?_eq_none.mpr
    intro y hy hc
    obtain ⟨hfy, idy, hidy⟩ := g2 y (by rw [hdb]; simp [hy])
    rw [inBucket_ok hidy] at hc
    simp only [Bool.and_eq_true, beq_iff_eq, decide_eq_true_eq] at hc
    exact (hne y hy).2 ⟨(hne y hy).1, by rw [hidy, hid', BucketIDToHex_inj hc.1], _, _,
      deriveKey_ok hs _ _ hfy.2.1 hfy.2.2.1 ht, deriveKey_ok hs _ _ hf.2.1 hf.2.2.1 ht, hc.2⟩
  rw [h1, Option.none_or, List.find?_cons_of_pos (by rw [inBucket_ok hid']; simp)]
  exact (open_stored x hf _).2 rfl

theorem mutate_start (pw : Bytes) (k : Nat) (ws : List Bytes)
    (hk : mutate dasRules pw k = .ok ws) (n : Int) (hn : k ≤ n)
    (vs : List Bytes) (hvs : mutate dasRules pw n = .ok vs) : ∃ rest, vs = ws ++ rest := by
  have := C34_prefix pw k n ws vs hn hk hvs
  exact ⟨vs.drop k, by rw [this]; simp⟩

/-- C30: 'a breached password that was inserted is reported as InBreach' is false: after inserting
`(u, password1)` with at least two variants and then `(u, password)`, both successfully, the query for
`(u, password)` is answered SimilarInBreach with the metadata of the first record — for every server,
unless one of the two earlier entries has the same 160-bit tag. -/
theorem C30_variant_shadows (hc : NewClient E cfg.toConfig = .ok c) (hs : NewServer E cfg = .ok s)
    (u m₁ m₂ : Bytes) (n₁ n₂ : Int) (hn : 2 ≤ n₁) (w₁ w₂ : Bool) (kv₁ kv₂ : KV)
    (h₁ : insertRecord E s ⟨u, ascii "password1", m₁, n₁, w₁⟩ newKVStore = (kv₁, .ok ()))
    (h₂ : insertRecord E s ⟨u, ascii "password", m₂, n₂, w₂⟩ kv₁ = (kv₂, .ok ()))
    (hno₁ : ¬ TagCollision E s ⟨u, ascii "password1", 1, m₁⟩ u (ascii "password"))
    (hno₂ : ¬ TagCollision E s ⟨u, ascii "Password1", 2, m₁⟩ u (ascii "password"))
    (r : ZMod c.suite.q) (hr : r ≠ 0) :
    exchange E c s kv₂ u (ascii "password") r = .ret SimilarInBreach (some m₁) none := by
  obtain ⟨-, vs, -, -, -, hvs, -⟩ := C43_insert_appends hs _ _ _ h₁
  obtain ⟨-, vs', -, -, -, hvs', -⟩ := C43_insert_appends hs _ _ _ h₂
  have hh := History.inserted _ vs' (History.inserted _ vs .start h₁ hvs) h₂ hvs'
  have h2 : mutate dasRules (ascii "password1") (2 : Nat) = .ok [ascii "Password1", ascii "password"] := by
    decide +kernel
  obtain ⟨rest, rfl⟩ := mutate_start _ 2 _ h2 n₁ hn vs hvs
  refine exchange_shadow hc hs hh (x := ⟨u, ascii "password", 2, m₁⟩)
    (pre := [⟨u, ascii "password1", 1, m₁⟩, ⟨u, ascii "Password1", 2, m₁⟩]) rfl r hr ?_
  intro y hy
  simp only [List.mem_cons, List.not_mem_nil, or_false] at hy
  rcases hy with rfl | rfl
  · exact ⟨fun e => absurd e.2 (by dsimp only; decide +kernel), hno₁⟩
  · exact ⟨fun e => absurd e.2 (by dsimp only; decide +kernel), hno₂⟩

/-- C30: a username query (empty password) is answered SimilarInBreach although the username entry
was requested, when the breached password is as short as `abc`: the empty string is then one of its
variants, stored before the username entry. -/
theorem C30_username_shadowed (hc : NewClient E cfg.toConfig = .ok c) (hs : NewServer E cfg = .ok s)
    (u m : Bytes) (n : Int) (hn : 4 ≤ n) (kv : KV)
    (h : insertRecord E s ⟨u, ascii "abc", m, n, true⟩ newKVStore = (kv, .ok ()))
    (hno : ∀ p ∈ [ascii "abc", ascii "Abc", ascii "ab", ascii "a"],
      ∀ f, ¬ TagCollision E s ⟨u, p, f, m⟩ u [])
    (r : ZMod c.suite.q) (hr : r ≠ 0) :
    exchange E c s kv u [] r = .ret SimilarInBreach (some m) none := by
  obtain ⟨-, vs, -, -, -, hvs, -⟩ := C43_insert_appends hs _ _ _ h
  have hh := History.inserted _ vs .start h hvs
  have h2 : mutate dasRules (ascii "abc") (4 : Nat) =
      .ok [ascii "Abc", ascii "ab", ascii "a", []] := by decide +kernel
  obtain ⟨rest, rfl⟩ := mutate_start _ 4 _ h2 n hn vs hvs
  refine exchange_shadow hc hs hh (x := ⟨u, [], 2, m⟩)
    (pre := [⟨u, ascii "abc", 1, m⟩, ⟨u, ascii "Abc", 2, m⟩, ⟨u, ascii "ab", 2, m⟩,
      ⟨u, ascii "a", 2, m⟩]) rfl r hr ?_
  intro y hy
  simp only [List.mem_cons, List.not_mem_nil, or_false] at hy
  rcases hy with rfl | rfl | rfl | rfl
  · exact ⟨fun e => absurd e.2 (by dsimp only; decide +kernel), hno _ (by simp) _⟩
  · exact ⟨fun e => absurd e.2 (by dsimp only; decide +kernel), hno _ (by simp) _⟩
  · exact ⟨fun e => absurd e.2 (by dsimp only; decide +kernel), hno _ (by simp) _⟩
  · exact ⟨fun e => absurd e.2 (by dsimp only; decide +kernel), hno _ (by simp) _⟩

/-- No string of one to three bytes has the murmur3 hash of the empty string. -/
theorem sum32_short (v : Bytes) (h1 : 1 ≤ v.length) (h3 : v.length ≤ 3) :
    Murmur3.sum32 v ≠ Murmur3.sum32 [] := by
  intro e
  unfold Murmur3.sum32 at e
  have e := Murmur3.fmix_inj e
  have key : ∀ (a b c : UInt8) (n k : UInt32), Murmur3.mixK k = n →
      (0 : UInt32) ^^^ Murmur3.mixK (Murmur3.le32 a b c 0) ^^^ n = 0 → Murmur3.le32 a b c 0 = k := by
    intro a b c n k hk h
    apply Murmur3.mixK_inj
    rw [hk]
    have := congrArg (· ^^^ n) h
    simpa [UInt32.xor_assoc] using this
  have hb : ∀ a b c : UInt8, (Murmur3.le32 a b c 0).toNat = a.toNat + 256 * (b.toNat + 256 * c.toNat) := by
    intro a b c
    have := a.toNat_lt; have := b.toNat_lt; have := c.toNat_lt
    simp only [Murmur3.le32, UInt32.toNat_ofNat', UInt8.toNat_zero]
    omega
  have e0 : Murmur3.body 0 [] ^^^ UInt32.ofNat ([] : Bytes).length = 0 := by decide
  rw [e0, Murmur3.body_short 0 v (by rintro a b c d rest rfl; simp only [List.length_cons] at h3; omega)] at e
  clear e0
  rcases v with _ | ⟨a, _ | ⟨b, _ | ⟨c, _ | ⟨d, t⟩⟩⟩⟩
  · simp at h1
  · have := congrArg UInt32.toNat (key a 0 0 1 0xa97971ba (by decide +kernel) e)
    rw [hb, show (0xa97971ba : UInt32).toNat = 0xa97971ba from rfl, UInt8.toNat_zero] at this
    have := a.toNat_lt
    clear e key hb
    omega
  · have := congrArg UInt32.toNat (key a b 0 2 0x52f2e374 (by decide +kernel) e)
    rw [hb, show (0x52f2e374 : UInt32).toNat = 0x52f2e374 from rfl, UInt8.toNat_zero] at this
    have := a.toNat_lt; have := b.toNat_lt
    clear e key hb
    omega
  · have := congrArg UInt32.toNat (key a b c 3 0x63eb90df (by decide +kernel) e)
    rw [hb, show (0x63eb90df : UInt32).toNat = 0x63eb90df from rfl] at this
    have := a.toNat_lt; have := b.toNat_lt; have := c.toNat_lt
    clear e key hb
    omega
  · simp only [List.length_cons] at h3; omega

/-- If the empty string is among the results and every result before it has one to three bytes, it is
kept, within as many results as there are up to it. -/
theorem nil_mem_keep (seen : List UInt32) (pre rest : List Bytes)
    (hs : Murmur3.sum32 [] ∉ seen) (hp : ∀ y ∈ pre, 1 ≤ y.length ∧ y.length ≤ 3) :
    [] ∈ (keep seen (pre ++ [] :: rest)).take (pre.length + 1) := by
  induction pre generalizing seen with
  | nil =>
    rw [List.nil_append, keep, if_neg hs]
    simp
  | cons y ys ih =>
    rw [List.cons_append, keep]
    have hy := hp y (by simp)
    have hys := fun z hz => hp z (List.mem_cons_of_mem _ hz)
    split
    · have := ih seen hs hys
      exact List.mem_of_mem_take (i := ys.length + 1) (by
        rw [List.take_take, Nat.min_eq_left (by simp)]; exact this)
    · rw [List.length_cons, List.take_succ_cons]
      refine List.mem_cons_of_mem _ (ih _ ?_ hys)
      intro h
      rcases List.mem_cons.mp h with h | h
      · exact sum32_short y hy.1 hy.2 h.symm
      · exact hs h

theorem dasRules_start : ∃ rest, dasRules = ⟨ascii "c", 0, [], []⟩ :: ⟨ascii "d", -1, [], []⟩ ::
    ⟨ascii "d", -2, [], []⟩ :: ⟨ascii "d", -3, [], []⟩ :: rest := ⟨_, rfl⟩

theorem deletions_start (pw : Bytes) (h1 : 1 ≤ pw.length) (h3 : pw.length ≤ 3) (tl : List Bytes) :
    ∃ pre post : List Bytes, pre.length ≤ 3 ∧ (∀ y ∈ pre, 1 ≤ y.length ∧ y.length ≤ 3) ∧
      capitalise 0 pw :: delete (-1) pw :: delete (-2) pw :: delete (-3) pw :: tl
        = pre ++ [] :: post := by
  have hcl : (capitalise 0 pw).length = pw.length := by simp [capitalise]
  rcases pw with _ | ⟨a, _ | ⟨b, _ | ⟨c, _ | ⟨d, t⟩⟩⟩⟩
  · simp at h1
  · exact ⟨[capitalise 0 [a]], _, by simp, by
      intro y hy; obtain rfl := List.mem_singleton.mp hy; rw [hcl]; simp, rfl⟩
  · exact ⟨[capitalise 0 [a, b], delete (-1) [a, b]], _, by simp, by
      intro y hy
      simp only [List.mem_cons, List.not_mem_nil, or_false] at hy
      rcases hy with rfl | rfl
      · rw [hcl]; simp
      · simp [delete], rfl⟩
  · exact ⟨[capitalise 0 [a, b, c], delete (-1) [a, b, c], delete (-2) [a, b, c]], _, by simp, by
      intro y hy
      simp only [List.mem_cons, List.not_mem_nil, or_false] at hy
      rcases hy with rfl | rfl | rfl
      · rw [hcl]; simp
      · simp [delete]
      · simp [delete], rfl⟩
  · simp only [List.length_cons] at h3; omega

/-- The empty string is among the first four variants of every password of one to three bytes. -/
theorem empty_variant (pw : Bytes) (h1 : 1 ≤ pw.length) (h3 : pw.length ≤ 3) (n : Int) (hn : 4 ≤ n)
    (vs : List Bytes) (hvs : mutate dasRules pw n = .ok vs) : [] ∈ vs := by
  have hrg := mutate_ok_range hvs
  rw [mutate_keep pw n hrg.1 hrg.2] at hvs
  injection hvs with hvs
  have hwf := dasRules_wf
  obtain ⟨rest, hd⟩ := dasRules_start
  rw [hd] at hvs hwf
  clear hd
  have hres : ∀ r, RuleWF r → ∀ o, RuleResult r pw o → resultOf pw r = o :=
    fun r hr o ho => ((resultOf_spec pw r hr).2.2 o ho).symm
  have hc := hres _ (hwf _ (by simp)) _ (RuleResult.c 0 [] [] pw)
  have hd1 := hres _ (hwf ⟨ascii "d", -1, [], []⟩ (by simp)) _ (RuleResult.d (-1) [] [] pw)
  have hd2 := hres _ (hwf ⟨ascii "d", -2, [], []⟩ (by simp)) _ (RuleResult.d (-2) [] [] pw)
  have hd3 := hres _ (hwf ⟨ascii "d", -3, [], []⟩ (by simp)) _ (RuleResult.d (-3) [] [] pw)
  simp only [List.map_cons] at hvs
  rw [hc, hd1, hd2, hd3] at hvs
  generalize rest.map (resultOf pw) = tl at hvs
  have hseen : Murmur3.sum32 [] ∉ [Murmur3.sum32 pw] := by
    intro h
    exact sum32_short pw h1 h3 (List.mem_singleton.mp h).symm
  obtain ⟨pre, post, hl, hpre, he⟩ := deletions_start pw h1 h3 tl
  rw [he] at hvs
  have := nil_mem_keep [Murmur3.sum32 pw] pre post hseen hpre
  rw [← hvs]
  refine List.mem_of_mem_take (i := pre.length + 1) ?_
  rw [List.take_take, Nat.min_eq_left (by omega)]
  exact this

/-- C30: this happens for every password of one to three bytes: the username query is answered
SimilarInBreach, never BreachedUsername, unless an entry of the record collides with it. -/
theorem C30_short_password_shadows (hc : NewClient E cfg.toConfig = .ok c)
    (hs : NewServer E cfg = .ok s) (u pw m : Bytes) (h1 : 1 ≤ pw.length) (h3 : pw.length ≤ 3)
    (n : Int) (hn : 4 ≤ n) (kv : KV) (vs : List Bytes)
    (h : insertRecord E s ⟨u, pw, m, n, true⟩ newKVStore = (kv, .ok ()))
    (hvs : mutate dasRules pw n = .ok vs)
    (hno : ∀ x ∈ (⟨u, pw, m, n, true⟩ : Record).stored vs, ¬ TagCollision E s x u [])
    (r : ZMod c.suite.q) (hr : r ≠ 0) :
    exchange E c s kv u [] r = .ret SimilarInBreach (some m) none := by
  have hh := History.inserted _ vs .start h hvs
  have hmem := empty_variant pw h1 h3 n hn vs hvs
  obtain ⟨pre, post, rfl, hpre⟩ : ∃ pre post, vs = pre ++ [] :: post ∧ [] ∉ pre := by
    clear hvs hno hh
    induction vs with
    | nil => cases hmem
    | cons v vs ih =>
      by_cases hv : v = []
      · exact ⟨[], vs, by rw [hv]; rfl, by simp⟩
      · obtain ⟨pre, post, e, hp⟩ := ih (by
          rcases List.mem_cons.mp hmem with h | h
          · exact absurd h.symm hv
          · exact h)
        exact ⟨v :: pre, post, by rw [e]; rfl, by
          rintro (_ | h)
          · exact hv rfl
          · exact hp ‹_›⟩
  have hst : [] ++ (⟨u, pw, m, n, true⟩ : Record).stored (pre ++ [] :: post) =
      (⟨u, pw, 1, m⟩ :: pre.map (fun v => (⟨u, v, 2, m⟩ : Stored))) ++ ⟨u, [], 2, m⟩ ::
        (post.map (fun v => (⟨u, v, 2, m⟩ : Stored)) ++ [⟨u, [], 3, m⟩]) := by
    simp [Record.stored]
  refine exchange_shadow hc hs hh (x := ⟨u, [], 2, m⟩) hst r hr ?_
  intro y hy
  have hy' : y ∈ (⟨u, pw, m, n, true⟩ : Record).stored (pre ++ [] :: post) := by
    rw [List.nil_append] at hst
    rw [hst]
    exact List.mem_append_left _ hy
  refine ⟨?_, hno y hy'⟩
  rintro ⟨-, e⟩
  dsimp only at e
  rcases List.mem_cons.mp hy with rfl | hy
  · dsimp only at e; rw [e] at h1; simp at h1
  · obtain ⟨v, hv, rfl⟩ := List.mem_map.mp hy
    dsimp only at e
    subst e
    exact hpre hv

/-- C30: a dummy entry stored first hides a record inserted later for the same credential: the answer
stays NotInBreach, with the dummy's metadata. -/
theorem C30_dummy_hides (hc : NewClient E cfg.toConfig = .ok c) (hs : NewServer E cfg = .ok s)
    (rec : Record) (dummy ct : Bytes) (id : UInt32) (kv : KV)
    (h₁ : s.encryptBucketEntry E rec.username rec.password MetadataDummy dummy = .ok ct)
    (h₂ : s.bucketID E rec.username = .ok id)
    (h₃ : insertRecord E s rec (newKVStore.append (BucketIDToHex id) ct) = (kv, .ok ()))
    (r : ZMod c.suite.q) (hr : r ≠ 0) :
    exchange E c s kv rec.username rec.password r = .ret NotInBreach (some dummy) none := by
  obtain ⟨-, vs, -, -, -, hvs, -⟩ := C43_insert_appends hs _ _ _ h₃
  have hh := History.inserted _ vs (History.entry _ _ _ _ _ _ .start h₁ h₂) h₃ hvs
  exact exchange_shadow hc hs hh (x := ⟨rec.username, rec.password, MetadataDummy, dummy⟩)
    (pre := []) rfl r hr (by simp)

/-! ## The concrete case: the theorems' hypotheses are met by a real run -/

section concrete
open Example

theorem example_tweak : Spec.tweak server.suite server.privateKey ≠ 0 := by
  show Spec.tweak toySuite ⟨7⟩ ≠ 0
  decide +kernel

theorem example_insert (r : Record) (kv : KV) (hu : r.username.length ≤ 65536)
    (hp : r.password.length ≤ 49152) (hm : r.metadata.length ≤ 8160) (hn : 0 ≤ r.numVariants)
    (hn' : r.numVariants ≤ 323) : ∃ kv', insertRecord ext server r kv = (kv', .ok ()) := by
  have ho := C45_outcomes newServer_eq r kv
  have h1 := C45_short_passwords newServer_eq r kv (by decide) (by decide) hu hp hn (by
    have := (C37_limit (10 ^ 12)).mpr (by decide); omega)
  have h2 : ¬ (insertRecord ext server r kv).2.IsErr := by
    rw [ho.2]
    rintro ⟨-, h | h⟩
    · omega
    · exact example_tweak h
  rcases h : insertRecord ext server r kv with ⟨kv', u | e | p⟩
  · exact ⟨kv', rfl⟩
  · exact absurd ⟨e, by rw [h]⟩ h2
  · exact absurd ⟨p, by rw [h]⟩ h1

/-- The tags of the three passwords differ (computed with the real SHA-256, HMAC and HKDF). -/
theorem example_tags :
    keyTag ext.sha256 (entryKey ext Example.cfg server (ascii "user") (ascii "password1")) ≠
      keyTag ext.sha256 (entryKey ext Example.cfg server (ascii "user") (ascii "password")) ∧
    keyTag ext.sha256 (entryKey ext Example.cfg server (ascii "user") (ascii "Password1")) ≠
      keyTag ext.sha256 (entryKey ext Example.cfg server (ascii "user") (ascii "password")) := by
  decide +kernel

theorem example_no_collision (p q m : Bytes) (f : UInt8) (hp : p.length ≤ 65536) (hq : q.length ≤ 65536)
    (h : keyTag ext.sha256 (entryKey ext Example.cfg server (ascii "user") p) ≠
      keyTag ext.sha256 (entryKey ext Example.cfg server (ascii "user") q)) :
    ¬ TagCollision ext server ⟨ascii "user", p, f, m⟩ (ascii "user") q := by
  rintro ⟨-, -, k, k', h1, h2, h3⟩
  have hu : (ascii "user").length ≤ 65536 := by decide
  dsimp only at h1
  rw [deriveKey_ok newServer_eq _ _ hu hp example_tweak] at h1
  rw [deriveKey_ok newServer_eq _ _ hu hq example_tweak] at h2
  injection h1 with h1
  injection h2 with h2
  apply h
  unfold entryKey
  rw [h1, h2, h3]

/-- C30, a complete concrete run. -/
theorem C30_example : ∃ kv₁ kv₂,
    insertRecord ext server ⟨ascii "user", ascii "password1", ascii "A", 2, false⟩ newKVStore
      = (kv₁, .ok ()) ∧
    insertRecord ext server ⟨ascii "user", ascii "password", ascii "B", 0, false⟩ kv₁
      = (kv₂, .ok ()) ∧
    ∀ r : ZMod client.suite.q, r ≠ 0 →
      exchange ext client server kv₂ (ascii "user") (ascii "password") r =
        .ret SimilarInBreach (some (ascii "A")) none := by
  obtain ⟨kv₁, h₁⟩ := example_insert ⟨ascii "user", ascii "password1", ascii "A", 2, false⟩ newKVStore
    (by decide) (by decide) (by decide) (by decide) (by decide)
  obtain ⟨kv₂, h₂⟩ := example_insert ⟨ascii "user", ascii "password", ascii "B", 0, false⟩ kv₁
    (by decide) (by decide) (by decide) (by decide) (by decide)
  refine ⟨kv₁, kv₂, h₁, h₂, fun r hr => ?_⟩
  exact C30_variant_shadows newClient_eq newServer_eq _ _ _ _ _ (by decide) _ _ _ _ h₁ h₂
    (example_no_collision _ _ _ _ (by decide) (by decide) example_tags.1)
    (example_no_collision _ _ _ _ (by decide) (by decide) example_tags.2) r hr

/-- C26-C32: a history with an accepted record, a refused one (metadata too long) and a dummy. -/
example : ∃ kv db, History ext server kv db ∧ db.length = 4 ∧
    (∃ x ∈ db, x.flag = 2) ∧ ∃ x ∈ db, x.flag = 0 := by
  obtain ⟨kv₁, h₁⟩ := example_insert ⟨ascii "user", ascii "abc", ascii "A", 1, true⟩ newKVStore
    (by decide) (by decide) (by decide) (by decide) (by decide)
  have hm : mutate dasRules (ascii "abc") 1 = .ok [ascii "Abc"] := by decide +kernel
  have hh := History.inserted _ _ .start h₁ hm
  have hlong : (insertRecord ext server ⟨[], [], List.replicate 8161 0, 0, false⟩ kv₁).2.IsErr := by
    rw [(C45_outcomes newServer_eq _ _).2]
    exact ⟨⟨by decide, by decide, by simp, by simp⟩, .inl (by rw [List.length_replicate]; decide)⟩
  obtain ⟨e, he⟩ := hlong
  have hh := History.refused _ e hh (Prod.ext rfl he)
  obtain ⟨id, hid⟩ : ∃ id, server.bucketID ext (ascii "x") = .ok id := by
    rcases bucketID_cases newServer_eq (ascii "x") with ⟨-, -, -, h⟩ | ⟨h, -⟩
    · exact h
    · exact absurd h (by decide)
  have hc := encryptBucketEntry_ok newServer_eq (ascii "x") (ascii "y") 0 [] (by decide) (by decide)
    (by decide) example_tweak (by decide)
  exact ⟨_, _, History.entry _ _ _ _ _ _ hh hc hid, rfl, ⟨⟨ascii "user", ascii "Abc", 2, ascii "A"⟩,
    by simp [Record.stored], rfl⟩, ⟨_, List.mem_append_right _ (List.mem_singleton.mpr rfl), rfl⟩⟩

/-- C45: the crash of `C45_limit_password_crashes` in a concrete case: the password is accepted by
`EncryptBucketEntry` and crashes `insert`. -/
example : (server.encryptBucketEntry ext [] (List.replicate 65536 97) 1 []).IsOk ∧
    (insertRecord ext server ⟨[], List.replicate 65536 97, [], 25, false⟩ newKVStore).2.IsPanic :=
  ⟨⟨_, encryptBucketEntry_ok newServer_eq _ _ _ _ (by decide) (Nat.zero_le _)
    (by rw [List.length_replicate]) example_tweak (Nat.zero_le _)⟩,
    C45_limit_password_crashes newServer_eq _ _ (List.length_replicate) (by decide) (Nat.zero_le _)
    example_tweak⟩

end concrete

end Migp.Props
