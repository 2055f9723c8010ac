import Verif.Spec.BucketView
import Verif.Props.Mismatch
import Verif.Props.Witness2
import Mathlib.Logic.Equiv.Basic
import Mathlib.Tactic.ByContra
/-!
# C84: what a bucket shows to a client that does not know its credentials
-/
namespace Migp.Props
open Spec

/-! ## Permutations -/

/-- Pairs that respect equality are part of a permutation, which leaves alone what is the same in all pairs it occurs in. -/
theorem extend_pairs {C : Type} [DecidableEq C] (K : C → Prop) (ps : List (C × C))
    (h : ∀ a ∈ ps, ∀ b ∈ ps, a.1 = b.1 ↔ a.2 = b.2) (hK : ∀ a ∈ ps, K a.1 ∨ K a.2 → a.1 = a.2) :
    ∃ σ : Equiv.Perm C, (∀ a ∈ ps, σ a.1 = a.2) ∧ ∀ c, K c → σ c = c := by
  induction ps with
  | nil => exact ⟨Equiv.refl C, fun a ha => (List.not_mem_nil ha).elim, fun _ _ => rfl⟩
  | cons p ps ih =>
    obtain ⟨σ, h1, h2⟩ := ih (fun a ha b hb => h a (List.mem_cons_of_mem _ ha) b (List.mem_cons_of_mem _ hb))
      (fun a ha => hK a (List.mem_cons_of_mem _ ha))
    by_cases hin : ∃ a ∈ ps, a.1 = p.1
    · obtain ⟨a, ha, e⟩ := hin
      refine ⟨σ, fun b hb => ?_, h2⟩
      rcases List.mem_cons.mp hb with rfl | hb
      · rw [← e, h1 a ha]
        exact (h a (List.mem_cons_of_mem _ ha) b List.mem_cons_self).mp e
      · exact h1 b hb
    · refine ⟨σ.trans (Equiv.swap (σ p.1) p.2), fun b hb => ?_, fun c hc => ?_⟩
      · rw [Equiv.trans_apply]
        rcases List.mem_cons.mp hb with rfl | hb
        · exact Equiv.swap_apply_left _ _
        · rw [h1 b hb]
          have hne : b.1 ≠ p.1 := fun e => hin ⟨b, hb, e⟩
          refine Equiv.swap_apply_of_ne_of_ne ?_ ?_
          · intro e
            rw [← h1 b hb] at e
            exact hne (σ.injective e)
          · exact fun e => hne ((h b (List.mem_cons_of_mem _ hb) p List.mem_cons_self).mpr e)
      · rw [Equiv.trans_apply, h2 c hc]
        by_cases hp : K p.1 ∨ K p.2
        · have e := hK p List.mem_cons_self hp
          have hk : K p.1 := hp.elim id (fun h => e ▸ h)
          rw [h2 _ hk, e, Equiv.swap_self]
          rfl
        · refine Equiv.swap_apply_of_ne_of_ne ?_ (fun e => hp (.inr (e ▸ hc)))
          intro e
          have : σ c = σ p.1 := (h2 c hc).trans e
          exact hp (.inl (σ.injective this ▸ hc))

/-! ## Equal buckets have the same shape -/

theorem len32_inj {n m : Nat} (hn : n < 2 ^ 32) (hm : m < 2 ^ 32) (h : len32 n = len32 m) : n = m := by
  unfold len32 at h
  rw [← be32_ofNat n hn, ← be32_ofNat m hm] at h
  have := congrArg UInt32.toNat (be32_inj h)
  rwa [UInt32.toNat_ofNat', UInt32.toNat_ofNat', Nat.mod_eq_of_lt hn, Nat.mod_eq_of_lt hm] at this

/-- Two entries followed by anything. -/
theorem masked_inj {P Q : Pad} {x y : Stored} {r t : Bytes} (hP : P.tag.length = 20) (hQ : Q.tag.length = 20)
    (hx : x.metadata.length < 2 ^ 32) (hy : y.metadata.length < 2 ^ 32) (h : masked P x ++ r = masked Q y ++ t) :
    P.tag = Q.tag ∧ x.flag ^^^ P.flag = y.flag ^^^ Q.flag ∧ x.metadata.length = y.metadata.length ∧
    (∀ k, k < x.metadata.length → x.metadata.getD k 0 ^^^ P.body k = y.metadata.getD k 0 ^^^ Q.body k) ∧ r = t := by
  unfold masked at h
  simp only [List.append_assoc] at h
  obtain ⟨h1, h⟩ := List.append_inj h (by rw [hP, hQ])
  rw [List.singleton_append, List.singleton_append] at h
  obtain ⟨h2, h⟩ := List.cons.inj h
  obtain ⟨h3, h⟩ := List.append_inj h (by rfl)
  have hl := len32_inj hx hy h3
  obtain ⟨h4, h5⟩ := List.append_inj h (by simpa using hl)
  refine ⟨h1, h2, hl, fun k hk => ?_, h5⟩
  have := congrArg (fun l => l[k]?) h4
  simp only [List.getElem?_mapIdx] at this
  rw [List.getElem?_eq_getElem hk, List.getElem?_eq_getElem (hl ▸ hk)] at this
  simp only [Option.map_some, Option.some.injEq] at this
  rw [List.getD_eq_getElem?_getD, List.getD_eq_getElem?_getD, List.getElem?_eq_getElem hk, List.getElem?_eq_getElem (hl ▸ hk)]
  exact this

theorem masked_ne_nil (P : Pad) (x : Stored) : masked P x ≠ [] := by
  unfold masked
  simp

/-- Equal buckets, entry by entry. -/
theorem buckets_eq {P Q : Bytes × Bytes → Pad} {xs ys : List Stored} (hP : ∀ c, (P c).tag.length = 20)
    (hQ : ∀ c, (Q c).tag.length = 20) (hx : ∀ x ∈ xs, x.metadata.length < 2 ^ 32) (hy : ∀ y ∈ ys, y.metadata.length < 2 ^ 32)
    (h : maskedBucket P xs = maskedBucket Q ys) :
    xs.length = ys.length ∧ ∀ a ∈ xs.zip ys, (P a.1.cred).tag = (Q a.2.cred).tag ∧
      a.1.flag ^^^ (P a.1.cred).flag = a.2.flag ^^^ (Q a.2.cred).flag ∧ a.1.metadata.length = a.2.metadata.length ∧
      ∀ k, k < a.1.metadata.length →
        a.1.metadata.getD k 0 ^^^ (P a.1.cred).body k = a.2.metadata.getD k 0 ^^^ (Q a.2.cred).body k := by
  unfold maskedBucket at h
  induction xs generalizing ys with
  | nil =>
    cases ys with
    | nil => exact ⟨rfl, fun a ha => (List.not_mem_nil ha).elim⟩
    | cons y ys =>
      exfalso
      rw [List.flatMap_nil, List.flatMap_cons] at h
      exact masked_ne_nil _ _ (List.append_eq_nil_iff.mp h.symm).1
  | cons x xs ih =>
    cases ys with
    | nil =>
      exfalso
      rw [List.flatMap_nil, List.flatMap_cons] at h
      exact masked_ne_nil _ _ (List.append_eq_nil_iff.mp h).1
    | cons y ys =>
      rw [List.flatMap_cons, List.flatMap_cons] at h
      obtain ⟨h1, h2, h3, h4, h5⟩ := masked_inj (hP _) (hQ _) (hx x List.mem_cons_self) (hy y List.mem_cons_self) h
      obtain ⟨e1, e2⟩ := ih (fun z hz => hx z (List.mem_cons_of_mem _ hz)) (fun z hz => hy z (List.mem_cons_of_mem _ hz)) h5
      refine ⟨by rw [List.length_cons, List.length_cons, e1], fun a ha => ?_⟩
      rw [List.zip_cons_cons] at ha
      rcases List.mem_cons.mp ha with rfl | ha
      · exact ⟨h1, h2, h3, h4⟩
      · exact e2 a ha

theorem cancel {a b p c d q : UInt8} (h1 : a ^^^ p = c ^^^ q) (h2 : b ^^^ p = d ^^^ q) : a ^^^ b = c ^^^ d := by
  have e : (a ^^^ p) ^^^ (b ^^^ p) = (c ^^^ q) ^^^ (d ^^^ q) := by rw [h1, h2]
  have r : ∀ x y z : UInt8, (x ^^^ z) ^^^ (y ^^^ z) = x ^^^ y := by
    intro x y z
    rw [UInt8.xor_assoc, UInt8.xor_comm z, UInt8.xor_assoc, UInt8.xor_self, UInt8.xor_zero]
  rwa [r, r] at e

theorem zip_lengths {xs ys : List Stored} (h : xs.length = ys.length)
    (hl : ∀ a ∈ xs.zip ys, a.1.metadata.length = a.2.metadata.length) :
    xs.map (·.metadata.length) = ys.map (·.metadata.length) := by
  induction xs generalizing ys with
  | nil => cases ys with
    | nil => rfl
    | cons y ys => cases h
  | cons x xs ih => cases ys with
    | nil => cases h
    | cons y ys =>
      rw [List.map_cons, List.map_cons, ih (by simpa using h) (fun a ha => hl a (by rw [List.zip_cons_cons]; exact List.mem_cons_of_mem _ ha)),
        hl (x, y) (by rw [List.zip_cons_cons]; exact List.mem_cons_self)]

/-- C84: what a bucket shows. Two buckets that are the same bytes have the same shape, whatever they are masked with, provided that
different credentials of a bucket have different tags: anybody can tell from a bucket how many entries it has, how long the
metadata of each is, which of them are of the same credential, and for these the XOR of the flags and of the metadata. -/
theorem C84_shows {P Q : Bytes × Bytes → Pad} {xs ys : List Stored} (hP : ∀ c, (P c).tag.length = 20)
    (hQ : ∀ c, (Q c).tag.length = 20) (hx : ∀ x ∈ xs, x.metadata.length < 2 ^ 32) (hy : ∀ y ∈ ys, y.metadata.length < 2 ^ 32)
    (tx : ∀ x ∈ xs, ∀ x' ∈ xs, x.cred ≠ x'.cred → (P x.cred).tag ≠ (P x'.cred).tag)
    (ty : ∀ y ∈ ys, ∀ y' ∈ ys, y.cred ≠ y'.cred → (Q y.cred).tag ≠ (Q y'.cred).tag)
    (h : maskedBucket P xs = maskedBucket Q ys) : SameShape xs ys := by
  obtain ⟨h1, h2⟩ := buckets_eq hP hQ hx hy h
  refine ⟨h1, zip_lengths h1 (fun a ha => (h2 a ha).2.2.1), fun a ha b hb => ?_⟩
  obtain ⟨a1, a2, a3, a4⟩ := h2 a ha
  obtain ⟨b1, b2, b3, b4⟩ := h2 b hb
  have hax := (List.of_mem_zip (a := a.1) (b := a.2) ha)
  have hbx := (List.of_mem_zip (a := b.1) (b := b.2) hb)
  have hsame : a.1.cred = b.1.cred ↔ a.2.cred = b.2.cred := by
    constructor
    · intro e
      by_contra hne
      apply ty _ hax.2 _ hbx.2 hne
      rw [← a1, ← b1, e]
    · intro e
      by_contra hne
      apply tx _ hax.1 _ hbx.1 hne
      rw [a1, b1, e]
  refine ⟨hsame, fun e => ?_, fun e k hk hk' => ?_⟩
  · have e' := hsame.mp e
    rw [← e, ← e'] at b2
    exact cancel a2 b2
  · have e' := hsame.mp e
    have := b4 k hk'
    rw [← e, ← e'] at this
    exact cancel (a4 k hk) this

/-! ## Buckets of the same shape cannot be told apart -/

/-- The difference of the two flags of the entries of a credential. -/
def flagShift (ps : List (Stored × Stored)) (c : Bytes × Bytes) : UInt8 :=
  match ps.find? (fun a => a.2.cred = c) with
  | some a => a.1.flag ^^^ a.2.flag
  | none => 0

/-- The difference of the metadata of the entries of a credential. -/
def bodyShift (ps : List (Stored × Stored)) (c : Bytes × Bytes) (k : Nat) : UInt8 :=
  match ps.find? (fun a => a.2.cred = c ∧ k < a.2.metadata.length) with
  | some a => a.1.metadata.getD k 0 ^^^ a.2.metadata.getD k 0
  | none => 0

theorem shift_cancel {x y p x' y' : UInt8} (h : x ^^^ x' = y ^^^ y') : y ^^^ (p ^^^ (x' ^^^ y')) = x ^^^ p := by
  have e : x' ^^^ y' = x ^^^ y := by
    have h' : (x ^^^ x') ^^^ (x' ^^^ y) = (y ^^^ y') ^^^ (x' ^^^ y) := by rw [h]
    have l : (x ^^^ x') ^^^ (x' ^^^ y) = x ^^^ y := by
      rw [UInt8.xor_assoc, ← UInt8.xor_assoc x', UInt8.xor_self, UInt8.zero_xor]
    have r : (y ^^^ y') ^^^ (x' ^^^ y) = x' ^^^ y' := by
      rw [UInt8.xor_comm y, UInt8.xor_comm x', UInt8.xor_assoc, ← UInt8.xor_assoc y, UInt8.xor_self, UInt8.zero_xor, UInt8.xor_comm]
    rw [l, r] at h'
    exact h'.symm
  rw [e, UInt8.xor_comm p, UInt8.xor_comm x, UInt8.xor_assoc, ← UInt8.xor_assoc y, UInt8.xor_self, UInt8.zero_xor]

/-- C84: and that is all it shows. If the pads of different credentials are independent, two buckets of the same shape cannot be told
apart, not even by somebody who knows some credentials `K` (and so their pads), if the entries of these are the same in both:
there is a bijection of the tables of pads, which leaves the pads of `K` as they are, under which the two buckets are the same
bytes. -/
theorem C84_hides (K : Bytes × Bytes → Prop) {xs ys : List Stored} (h : SameShape xs ys)
    (hK : ∀ a ∈ xs.zip ys, K a.1.cred ∨ K a.2.cred → a.1 = a.2) :
    ∃ e : (Bytes × Bytes → Pad) ≃ (Bytes × Bytes → Pad),
      (∀ P, maskedBucket P xs = maskedBucket (e P) ys) ∧ (∀ P c, K c → e P c = P c) := by
  obtain ⟨σ, s1, s2⟩ := extend_pairs K ((xs.zip ys).map (fun a => (a.1.cred, a.2.cred)))
    (by
      intro a ha b hb
      obtain ⟨a, ha', rfl⟩ := List.mem_map.mp ha
      obtain ⟨b, hb', rfl⟩ := List.mem_map.mp hb
      exact (h.pairs a ha' b hb').same)
    (by
      intro a ha hk
      obtain ⟨a, ha', rfl⟩ := List.mem_map.mp ha
      dsimp only at hk ⊢
      rw [hK a ha' hk])
  have hσ : ∀ a ∈ xs.zip ys, σ a.1.cred = a.2.cred := fun a ha => s1 _ (List.mem_map.mpr ⟨a, ha, rfl⟩)
  have hlen : ∀ a ∈ xs.zip ys, a.1.metadata.length = a.2.metadata.length := by
    have h1 := h.entries
    have h2 := h.lengths
    clear h hK s1 hσ
    induction xs generalizing ys with
    | nil => intro a ha; exact (List.not_mem_nil ha).elim
    | cons x xs ih =>
      cases ys with
      | nil => cases h1
      | cons y ys =>
        rw [List.map_cons, List.map_cons] at h2
        obtain ⟨e1, e2⟩ := List.cons.inj h2
        intro a ha
        rw [List.zip_cons_cons] at ha
        rcases List.mem_cons.mp ha with rfl | ha
        · exact e1
        · exact ih (by simpa using h1) e2 a ha
  have fs : ∀ a ∈ xs.zip ys, ∀ p, a.2.flag ^^^ (p ^^^ flagShift (xs.zip ys) a.2.cred) = a.1.flag ^^^ p := by
    intro a ha p
    unfold flagShift
    cases hf : (xs.zip ys).find? (fun b => b.2.cred = a.2.cred) with
    | none =>
      have := List.find?_eq_none.mp hf a ha
      simp at this
    | some b =>
      have hb := List.mem_of_find?_eq_some hf
      have e : b.2.cred = a.2.cred := by simpa using List.find?_some hf
      have r := h.pairs a ha b hb
      exact shift_cancel (r.flags (r.same.mpr e.symm))
  have bs : ∀ a ∈ xs.zip ys, ∀ k, k < a.2.metadata.length → ∀ p,
      a.2.metadata.getD k 0 ^^^ (p ^^^ bodyShift (xs.zip ys) a.2.cred k) = a.1.metadata.getD k 0 ^^^ p := by
    intro a ha k hk p
    unfold bodyShift
    cases hf : (xs.zip ys).find? (fun b => b.2.cred = a.2.cred ∧ k < b.2.metadata.length) with
    | none =>
      have := List.find?_eq_none.mp hf a ha
      simp only [decide_eq_true_eq] at this
      exact absurd ⟨trivial, hk⟩ this
    | some b =>
      have hb := List.mem_of_find?_eq_some hf
      have e := List.find?_some hf
      simp only [decide_eq_true_eq] at e
      have r := h.pairs a ha b hb
      exact shift_cancel (r.metadata (r.same.mpr e.1.symm) k (by rw [hlen a ha]; exact hk) (by rw [hlen b hb]; exact e.2))
  have fK : ∀ c, K c → flagShift (xs.zip ys) c = 0 := by
    intro c hc
    unfold flagShift
    cases hf : (xs.zip ys).find? (fun b => b.2.cred = c) with
    | none => rfl
    | some b =>
      have hb := List.mem_of_find?_eq_some hf
      have e : b.2.cred = c := by simpa using List.find?_some hf
      have := hK b hb (.inr (e ▸ hc))
      dsimp only
      rw [this, UInt8.xor_self]
  have bK : ∀ c, K c → ∀ k, bodyShift (xs.zip ys) c k = 0 := by
    intro c hc k
    unfold bodyShift
    cases hf : (xs.zip ys).find? (fun b => b.2.cred = c ∧ k < b.2.metadata.length) with
    | none => rfl
    | some b =>
      have hb := List.mem_of_find?_eq_some hf
      have e := List.find?_some hf
      simp only [decide_eq_true_eq] at e
      have := hK b hb (.inr (e.1 ▸ hc))
      dsimp only
      rw [this, UInt8.xor_self]
  have inv : ∀ a b : UInt8, (a ^^^ b) ^^^ b = a := fun a b => by rw [UInt8.xor_assoc, UInt8.xor_self, UInt8.xor_zero]
  refine ⟨⟨fun P c => ⟨(P (σ.symm c)).tag, (P (σ.symm c)).flag ^^^ flagShift (xs.zip ys) c,
      fun k => (P (σ.symm c)).body k ^^^ bodyShift (xs.zip ys) c k⟩,
    fun Q c => ⟨(Q (σ c)).tag, (Q (σ c)).flag ^^^ flagShift (xs.zip ys) (σ c),
      fun k => (Q (σ c)).body k ^^^ bodyShift (xs.zip ys) (σ c) k⟩, ?_, ?_⟩, ?_, ?_⟩
  · intro P
    funext c
    simp only [Equiv.symm_apply_apply, inv]
  · intro Q
    funext c
    simp only [Equiv.apply_symm_apply, inv]
  · intro P
    dsimp only [Equiv.coe_fn_mk]
    generalize hps : xs.zip ys = ps at *
    have main : ∀ xs' ys' : List Stored, xs'.length = ys'.length → (∀ a ∈ xs'.zip ys', a ∈ ps) →
        maskedBucket P xs' = maskedBucket (fun c => ⟨(P (σ.symm c)).tag, (P (σ.symm c)).flag ^^^ flagShift ps c,
          fun k => (P (σ.symm c)).body k ^^^ bodyShift ps c k⟩) ys' := by
      intro xs'
      induction xs' with
      | nil => intro ys' hl _; cases ys' with
        | nil => rfl
        | cons y ys' => cases hl
      | cons x xs' ih => intro ys' hl hm; cases ys' with
        | nil => cases hl
        | cons y ys' =>
          unfold maskedBucket at ih ⊢
          rw [List.flatMap_cons, List.flatMap_cons, ih ys' (by simpa using hl)
            (fun a ha => hm a (by rw [List.zip_cons_cons]; exact List.mem_cons_of_mem _ ha))]
          congr 1
          have ha : (x, y) ∈ ps := hm (x, y) (by rw [List.zip_cons_cons]; exact List.mem_cons_self)
          have e : σ.symm y.cred = x.cred := by rw [← hσ (x, y) ha]; exact Equiv.symm_apply_apply _ _
          unfold masked
          dsimp only
          rw [e, fs (x, y) ha]
          dsimp only
          have hl := hlen (x, y) ha
          dsimp only at hl
          rw [hl]
          congr 1
          apply List.ext_getElem
          · simpa using hl
          · intro k h1 h2
            rw [List.getElem_mapIdx, List.getElem_mapIdx]
            rw [List.length_mapIdx] at h1 h2
            have := bs (x, y) ha k h2 ((P x.cred).body k)
            dsimp only at this
            rw [List.getD_eq_getElem?_getD, List.getD_eq_getElem?_getD, List.getElem?_eq_getElem h1, List.getElem?_eq_getElem h2] at this
            exact this.symm
    exact main xs ys h.entries (fun a ha => hps ▸ ha)
  · intro P c hc
    have e : σ.symm c = c := by rw [Equiv.symm_apply_eq]; exact (s2 c hc).symm
    dsimp only [Equiv.coe_fn_mk]
    rw [e, fK c hc, UInt8.xor_zero]
    have : (fun k => (P c).body k ^^^ bodyShift (xs.zip ys) c k) = (P c).body := by
      funext k
      rw [bK c hc, UInt8.xor_zero]
    rw [this]

/-! ## The buckets of a server -/

section
variable {E : Ext} {cfg : ServerConfig} {s : Server}

/-- Masking with a prefix of the stream. -/
theorem xor_stream (m pad : Bytes) (h : m.length ≤ pad.length) :
    Spec.xor m (pad.take m.length) = m.mapIdx (fun k b => b ^^^ pad.getD k 0) := by
  change List.zipWith (· ^^^ ·) m (pad.take m.length) = _
  apply List.ext_getElem
  · rw [List.length_zipWith, List.length_take, List.length_mapIdx]; omega
  · intro k h1 h2
    rw [List.length_mapIdx] at h2
    rw [List.getElem_zipWith, List.getElem_take, List.getElem_mapIdx, List.getD_eq_getElem?_getD,
      List.getElem?_eq_getElem (by omega), Option.getD_some]

/-- C84: the bucket that a server sends has this form, after any history: the entries of the bucket, in the order in which they were
stored, each masked with pads that depend on its credential alone (and on the key of the server). -/
theorem C84_bucket (hs : NewServer E cfg = .ok s) {kv : KV} {db : List Stored} (h : History E s kv db) (id : UInt32) :
    kv.get (BucketIDToHex id) =
      .ok (maskedBucket (fun c => hkdfPad E.sha256 (oprf s.suite cfg.privateKey (oprfInput E cfg.slowHasherID c.1 c.2)))
        (db.filter (fun x => s.bucketID E x.username = .ok id))) := by
  obtain ⟨h1, h2, -⟩ := history_invariant hs h
  unfold KV.get
  rw [h1]
  have hf : db.filter (inBucket E s (BucketIDToHex id)) = db.filter (fun x => s.bucketID E x.username = .ok id) := by
    apply List.filter_congr
    intro x hx
    obtain ⟨id', hid'⟩ := (h2 x hx).2
    rw [inBucket_ok hid', hid']
    by_cases e : id' = id
    · subst e; simp
    · have : BucketIDToHex id' ≠ BucketIDToHex id := fun e' => e (C04_injective _ _ e')
      simp [e, this]
  rw [hf]
  have hm : ∀ x ∈ db.filter (fun x => s.bucketID E x.username = .ok id), x.metadata.length ≤ 8160 :=
    fun x hx => (h2 x (List.mem_filter.mp hx).1).1.2.2.2
  generalize db.filter (fun x => s.bucketID E x.username = .ok id) = xs at hm
  congr 1
  unfold Spec.bucket maskedBucket
  rw [List.map_map, ← List.flatMap_def]
  apply List.flatMap_congr
  intro x hx
  unfold Function.comp RawEntry.bytes
  rw [storedRaw_body_length E cfg s x (hm x hx)]
  unfold storedRaw masked hkdfPad bodyPad
  dsimp only
  have hk : entryKey E cfg s x.username x.password =
      oprf s.suite cfg.privateKey (oprfInput E cfg.slowHasherID x.cred.1 x.cred.2) := by
    rw [← server_key hs]; rfl
  rw [hk]
  generalize oprf s.suite cfg.privateKey (oprfInput E cfg.slowHasherID x.cred.1 x.cred.2) = secret
  have hb := xor_stream x.metadata (Spec.hkdf E.sha256 secret DerivePadBodySalt [] 8160)
    (by rw [hkdf_length E _ _ _ (Nat.le_refl _)]; exact hm x hx)
  rw [hkdf_take _ _ _ _ _ _ (hm x hx)] at hb
  rw [hb]
  rfl

/-- C84: the buckets of two servers. If the same bytes are sent as bucket `id` of one server and as bucket `id'` of another, whatever
their keys, and in neither of the buckets two different credentials have the same tag, then the buckets have the same shape. -/
theorem C84_servers {E' : Ext} {cfg' : ServerConfig} {s' : Server} (hs : NewServer E cfg = .ok s) (hs' : NewServer E' cfg' = .ok s')
    {kv kv' : KV} {db db' : List Stored} (h : History E s kv db) (h' : History E' s' kv' db') (id id' : UInt32)
    (hno : ∀ x ∈ db, ∀ y ∈ db, s.bucketID E x.username = .ok id → s.bucketID E y.username = .ok id → x.cred ≠ y.cred →
      keyTag E.sha256 (oprf s.suite cfg.privateKey (oprfInput E cfg.slowHasherID x.username x.password)) ≠
        keyTag E.sha256 (oprf s.suite cfg.privateKey (oprfInput E cfg.slowHasherID y.username y.password)))
    (hno' : ∀ x ∈ db', ∀ y ∈ db', s'.bucketID E' x.username = .ok id' → s'.bucketID E' y.username = .ok id' → x.cred ≠ y.cred →
      keyTag E'.sha256 (oprf s'.suite cfg'.privateKey (oprfInput E' cfg'.slowHasherID x.username x.password)) ≠
        keyTag E'.sha256 (oprf s'.suite cfg'.privateKey (oprfInput E' cfg'.slowHasherID y.username y.password)))
    (hb : kv.get (BucketIDToHex id) = kv'.get (BucketIDToHex id')) :
    SameShape (db.filter (fun x => s.bucketID E x.username = .ok id)) (db'.filter (fun x => s'.bucketID E' x.username = .ok id')) := by
  rw [C84_bucket hs h, C84_bucket hs' h'] at hb
  have hm : ∀ x ∈ db, x.metadata.length ≤ 8160 := fun x hx => ((history_invariant hs h).2.1 x hx).1.2.2.2
  have hm' : ∀ x ∈ db', x.metadata.length ≤ 8160 := fun x hx => ((history_invariant hs' h').2.1 x hx).1.2.2.2
  have tl : ∀ (E : Ext) secret, (hkdfPad E.sha256 secret).tag.length = 20 :=
    fun E secret => hkdf_length E secret _ 20 (by decide)
  refine C84_shows (fun c => tl E _) (fun c => tl E' _) ?_ ?_ ?_ ?_ (Res.ok.inj hb)
  · intro x hx
    have := hm x (List.mem_filter.mp hx).1
    omega
  · intro x hx
    have := hm' x (List.mem_filter.mp hx).1
    omega
  · intro x hx y hy
    obtain ⟨x1, x2⟩ := List.mem_filter.mp hx
    obtain ⟨y1, y2⟩ := List.mem_filter.mp hy
    exact hno x x1 y y1 (of_decide_eq_true x2) (of_decide_eq_true y2)
  · intro x hx y hy
    obtain ⟨x1, x2⟩ := List.mem_filter.mp hx
    obtain ⟨y1, y2⟩ := List.mem_filter.mp hy
    exact hno' x x1 y y1 (of_decide_eq_true x2) (of_decide_eq_true y2)

end

/-! ## Examples -/

/-- C84_hides: two buckets of the same shape, in which one credential is known (`v:w`) and another has two entries. -/
example : ∃ e : (Bytes × Bytes → Pad) ≃ (Bytes × Bytes → Pad),
    (∀ P, maskedBucket P [⟨ascii "a", ascii "b", 1, [1]⟩, ⟨ascii "v", ascii "w", 1, [9, 9]⟩, ⟨ascii "a", ascii "b", 2, [3, 4]⟩] =
      maskedBucket (e P) [⟨ascii "c", ascii "d", 2, [5]⟩, ⟨ascii "v", ascii "w", 1, [9, 9]⟩, ⟨ascii "c", ascii "d", 1, [7, 8]⟩]) ∧
    ∀ P c, c = (ascii "v", ascii "w") → e P c = P c := by
  refine C84_hides (fun c => c = (ascii "v", ascii "w")) ⟨rfl, rfl, ?_⟩ ?_
  · intro a ha b hb
    simp only [List.zip_cons_cons, List.zip_nil_left, List.mem_cons, List.not_mem_nil, or_false] at ha hb
    rcases ha with rfl | rfl | rfl <;> rcases hb with rfl | rfl | rfl <;>
      refine ⟨by decide, by decide, ?_⟩ <;> dsimp only <;> intro h k h1 h2
    all_goals first
      | exact absurd h (by decide)
      | (have : k = 0 := by simp at h1 h2; omega
         subst this; decide)
      | rfl
      | simp only [UInt8.xor_self]
  · intro a ha
    simp only [List.zip_cons_cons, List.zip_nil_left, List.mem_cons, List.not_mem_nil, or_false] at ha
    rcases ha with rfl | rfl | rfl <;> decide

open Mutator in
/-- C84_bucket, C84_servers: a bucket with three credentials and one with three entries of the same credential have the same size,
but they are different bytes. -/
example : ∃ kv kv', insertRecord Example.ext Example.server rec0 newKVStore = (kv, .ok ()) ∧
    History Example.ext Example.server kv' (List.replicate 3 ⟨ascii "user", ascii "abc", 1, ascii "A"⟩) ∧
    ∃ id, Example.server.bucketID Example.ext (ascii "user") = .ok id ∧ kv.get (BucketIDToHex id) ≠ kv'.get (BucketIDToHex id) := by
  obtain ⟨kv, hi, h⟩ := example_history
  have hv : mutate dasRules (ascii "abc") 0 = .ok [] := by decide +kernel
  obtain ⟨kv1, i1⟩ := example_insert ⟨ascii "user", ascii "abc", ascii "A", 0, false⟩ newKVStore (by decide) (by decide)
    (by decide) (by decide) (by decide)
  obtain ⟨kv2, i2⟩ := example_insert ⟨ascii "user", ascii "abc", ascii "A", 0, false⟩ kv1 (by decide) (by decide)
    (by decide) (by decide) (by decide)
  obtain ⟨kv3, i3⟩ := example_insert ⟨ascii "user", ascii "abc", ascii "A", 0, false⟩ kv2 (by decide) (by decide)
    (by decide) (by decide) (by decide)
  have h' : History Example.ext Example.server kv3 (List.replicate 3 ⟨ascii "user", ascii "abc", 1, ascii "A"⟩) :=
    History.inserted _ _ (History.inserted _ _ (History.inserted _ _ .start i1 hv) i2 hv) i3 hv
  refine ⟨kv, kv3, hi, h', ?_⟩
  have hb : ∃ id, Example.server.bucketID Example.ext (ascii "user") = .ok id := by
    have := (history_invariant Example.newServer_eq h').2.1 ⟨ascii "user", ascii "abc", 1, ascii "A"⟩ (by simp)
    exact this.2
  obtain ⟨id, hid⟩ := hb
  refine ⟨id, hid, fun e => ?_⟩
  have key := C84_servers Example.newServer_eq Example.newServer_eq h h' id id
    (by
      have tags : keyTag Example.ext.sha256 (entryKey Example.ext Example.cfg Example.server (ascii "user") (ascii "abc")) ≠
          keyTag Example.ext.sha256 (entryKey Example.ext Example.cfg Example.server (ascii "user") (ascii "Abc")) := by
        decide +kernel
      intro x hx y hy _ _ hne
      simp only [List.mem_cons, List.not_mem_nil, or_false] at hx hy
      rcases hx with rfl | rfl | rfl <;> rcases hy with rfl | rfl | rfl
      · exact absurd rfl hne
      · exact tags
      · exact example_tags2.1
      · exact tags.symm
      · exact absurd rfl hne
      · exact example_tags2.2.1
      · exact example_tags2.1.symm
      · exact example_tags2.2.1.symm
      · exact absurd rfl hne)
    (by
      intro x hx y hy _ _ hne
      rw [List.eq_of_mem_replicate hx, List.eq_of_mem_replicate hy] at hne
      exact absurd rfl hne) e
  simp only [List.filter_cons, hid, decide_true, if_true, List.filter_nil, List.replicate_succ, List.replicate_zero] at key
  have := (key.pairs (⟨ascii "user", ascii "abc", 1, ascii "A"⟩, ⟨ascii "user", ascii "abc", 1, ascii "A"⟩) (by simp)
    (⟨ascii "user", ascii "Abc", 2, ascii "A"⟩, ⟨ascii "user", ascii "abc", 1, ascii "A"⟩) (by simp)).same.mpr rfl
  revert this
  decide

end Migp.Props
