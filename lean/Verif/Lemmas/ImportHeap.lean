import Verif.Lemmas.LibraryHeap
import Verif.Model.ImportHeap
import Verif.Model.Main
import Verif.Props.KVHeap
/-!
# Loading on the heap does what the model on values says
-/
namespace Migp
open Spec HM

/-- `sl` is a slice of allocated memory and its contents are `b`. -/
def Holds (h : Heap) (sl : Slice) (b : Bytes) : Prop := h.Valid sl ∧ h.read sl = b

/-- Every array that existed has the contents it had. -/
def KeptH (h h' : Heap) : Prop := ∀ a < h.length, h'[a]? = h[a]?

theorem KeptH.refl (h : Heap) : KeptH h h := fun _ _ => rfl

theorem KeptH.length_le {h h' : Heap} (k : KeptH h h') : h.length ≤ h'.length := by
  by_contra hc
  have := k h'.length (by omega)
  rw [List.getElem?_eq_none (by omega), List.getElem?_eq_getElem (by omega)] at this
  cases this

theorem KeptH.trans {h1 h2 h3 : Heap} (k : KeptH h1 h2) (k' : KeptH h2 h3) : KeptH h1 h3 := fun a ha => by
  rw [k' a (by have := k.length_le; omega), k a ha]

theorem KeptH.append (h t : Heap) : KeptH h (h ++ t) := fun a ha => by
  rw [List.getElem?_append_left ha]

theorem keptH_iff {h h' : Heap} : KeptH h h' ↔ Kept h.mem h'.mem := by
  constructor
  · intro k a b hb
    have ha : a < h.length := (List.getElem?_eq_some_iff.mp hb).1
    exact (k a ha).trans hb
  · intro k a ha
    rw [List.getElem?_eq_getElem ha]
    exact k a _ (List.getElem?_eq_getElem ha)

theorem Holds.len {h : Heap} {sl : Slice} {b : Bytes} (s : Holds h sl b) : b.length = sl.len := by
  obtain ⟨⟨hl, h0 | ⟨a, ha, hc⟩⟩, hr⟩ := s
  · rw [← hr, Heap.read, List.length_take]; simp; omega
  · rw [← hr, Heap.read, ha]; simp; omega

theorem Holds.mono {h h' : Heap} {sl : Slice} {b : Bytes} (s : Holds h sl b) (k : KeptH h h') :
    Holds h' sl b := by
  obtain ⟨⟨hl, h0 | ⟨a, ha, hc⟩⟩, hr⟩ := s
  · refine ⟨⟨hl, Or.inl h0⟩, ?_⟩
    rw [← hr]; unfold Heap.read
    rw [show sl.len = 0 by omega, List.take_zero, List.take_zero]
  · have hlt : sl.arr < h.length := (List.getElem?_eq_some_iff.mp ha).1
    have e := k _ hlt
    exact ⟨⟨hl, Or.inr ⟨a, by rw [e, ha], hc⟩⟩, by rw [← hr]; unfold Heap.read; rw [e]⟩

theorem Holds.shows {h : Heap} {sl : Slice} {b : Bytes} (s : Holds h sl b) : Shows h.mem sl b := by
  refine ⟨s.1.1, s.len, fun i hi => ?_⟩
  have hl := s.len
  obtain ⟨⟨hc, h0 | ⟨a, ha, hle⟩⟩, hr⟩ := s
  · omega
  · unfold Memory.byte Heap.mem
    rw [ha, ← hr]
    unfold Heap.read
    rw [ha, Option.getD_some, List.getElem?_take, if_pos hi, List.getElem?_drop]
    rfl

theorem holds_of {h : Heap} {sl : Slice} {b : Bytes} (w : Within h.mem sl) (s : Shows h.mem sl b) : Holds h sl b := by
  refine ⟨w, ?_⟩
  obtain ⟨h1, h2, h3⟩ := s
  apply List.ext_getElem?
  intro i
  unfold Heap.read
  rw [List.getElem?_take]
  by_cases hi : i < sl.len
  · rw [if_pos hi, ← h3 i hi, List.getElem?_drop]
    unfold Memory.byte Heap.mem
    cases h[sl.arr]? <;> rfl
  · rw [if_neg hi, List.getElem?_eq_none (by omega)]

/-- A slice of an array that exists in `h'` and did not in `h`. -/
structure NewH (h h' : Heap) (sl : Slice) (b : Bytes) : Prop where
  lo : h.length ≤ sl.arr
  holds : Holds h' sl b

theorem newH_of {h h' : Heap} {sl : Slice} {b : Bytes} (n : NewSlice h.mem h'.mem sl b) : NewH h h' sl b :=
  ⟨List.getElem?_eq_none_iff.mp n.1.1, holds_of n.2.1 n.2.2⟩

theorem newH_append (h : Heap) (b : Bytes) : NewH h (h ++ [b]) ⟨h.length, 0, b.length, b.length⟩ b := by
  refine newH_of ?_
  rw [Heap.mem_append]
  exact newSlice_new h.mem_none b

/-- The store's slices show the values and own their arrays. -/
structure StoreInv (h : Heap) (st : StoreH) (kv : KV) : Prop where
  shows : ∀ k, Holds h (st k) (kv.store k)
  own : ∀ k k', k ≠ k' → (st k).cap ≠ 0 → (st k').cap ≠ 0 → (st k).arr ≠ (st k').arr

/-- The slice is not of an array of the store. -/
def Outside (st : StoreH) (sl : Slice) : Prop := sl.cap = 0 ∨ ∀ k, (st k).cap ≠ 0 → (st k).arr ≠ sl.arr

/-- What happens to memory: only arrays of the store are written to, and the store's arrays are the ones it
had or new ones. -/
structure Frame (h : Heap) (st : StoreH) (h' : Heap) (st' : StoreH) : Prop where
  len : h.length ≤ h'.length
  kept : ∀ a < h.length, (∀ k, (st k).cap ≠ 0 → (st k).arr ≠ a) → h'[a]? = h[a]?
  arrs : ∀ k, (st' k).cap ≠ 0 → (∃ k', (st k').cap ≠ 0 ∧ (st k').arr = (st' k).arr) ∨ h.length ≤ (st' k).arr

theorem Frame.of_kept {h h' : Heap} (k : KeptH h h') (st : StoreH) : Frame h st h' st :=
  ⟨k.length_le, fun a ha _ => k a ha, fun x hx => Or.inl ⟨x, hx, rfl⟩⟩

theorem Frame.trans {h1 h2 h3 : Heap} {s1 s2 s3 : StoreH} (f : Frame h1 s1 h2 s2) (g : Frame h2 s2 h3 s3) :
    Frame h1 s1 h3 s3 := by
  refine ⟨le_trans f.len g.len, fun a ha hk => ?_, fun k hk => ?_⟩
  · rw [g.kept a (lt_of_lt_of_le ha f.len), f.kept a ha hk]
    intro k hc e
    rcases f.arrs k hc with ⟨k', hk', e'⟩ | h
    · exact hk k' hk' (e'.trans e)
    · omega
  · rcases g.arrs k hk with ⟨k', hk', e'⟩ | h
    · rcases f.arrs k' hk' with ⟨k'', hk'', e''⟩ | h
      · exact Or.inl ⟨k'', hk'', e''.trans e'⟩
      · exact Or.inr (e' ▸ h)
    · exact Or.inr (le_trans f.len h)

theorem StoreInv.mono {h h' : Heap} {st : StoreH} {kv : KV} (i : StoreInv h st kv) (k : KeptH h h') :
    StoreInv h' st kv := ⟨fun x => (i.shows x).mono k, i.own⟩

theorem Holds.arr_lt {h : Heap} {sl : Slice} {b : Bytes} (s : Holds h sl b) (hc : sl.cap ≠ 0) :
    sl.arr < h.length := by
  obtain ⟨⟨_, h0 | ⟨a, ha, _⟩⟩, _⟩ := s
  · exact absurd h0 hc
  · exact (List.getElem?_eq_some_iff.mp ha).1

theorem Holds.of_get {h h' : Heap} {sl : Slice} {b : Bytes} (s : Holds h sl b)
    (e : sl.cap ≠ 0 → h'[sl.arr]? = h[sl.arr]?) : Holds h' sl b := by
  obtain ⟨⟨hl, hv⟩, hr⟩ := s
  by_cases h0 : sl.cap = 0
  · refine ⟨⟨hl, Or.inl h0⟩, ?_⟩
    rw [← hr]; unfold Heap.read
    rw [show sl.len = 0 by omega, List.take_zero, List.take_zero]
  · rcases hv with hz | ⟨a, ha, hc⟩
    · exact absurd hz h0
    · have e := e h0
      exact ⟨⟨hl, Or.inr ⟨a, by rw [e, ha], hc⟩⟩, by rw [← hr]; unfold Heap.read; rw [e]⟩

theorem Frame.shows {h h' : Heap} {st st' : StoreH} {sl : Slice} {b : Bytes} (f : Frame h st h' st')
    (s : Holds h sl b) (o : Outside st sl) : Holds h' sl b :=
  Holds.of_get s fun hc => f.kept _ (Holds.arr_lt s hc) fun k hk e => by
    rcases o with o | o
    · exact hc o
    · exact o k hk e

theorem Frame.outside {h h' : Heap} {st st' : StoreH} {sl : Slice} {b : Bytes} (f : Frame h st h' st')
    (s : Holds h sl b) (o : Outside st sl) : Outside st' sl := by
  by_cases hc : sl.cap = 0
  · exact Or.inl hc
  · refine Or.inr fun k hk e => ?_
    rcases f.arrs k hk with ⟨k', hk', e'⟩ | hle
    · rcases o with o | o
      · exact hc o
      · exact o k' hk' (e'.trans e)
    · have := Holds.arr_lt s hc
      omega

/-- New memory is outside the store. -/
theorem StoreInv.outside_new {h h' : Heap} {st : StoreH} {kv : KV} {sl : Slice} {b : Bytes} (i : StoreInv h st kv)
    (n : NewH h h' sl b) : Outside st sl := by
  refine Or.inr fun k hk e => ?_
  have := Holds.arr_lt (i.shows k) hk
  have h1 := n.lo
  omega

theorem append_inv {h : Heap} {st : StoreH} {kv : KV} {sl : Slice} {b : Bytes} (grow : Growth)
    (i : StoreInv h st kv) (s : Holds h sl b) (id : GoString) :
    StoreInv (st.append grow id sl h).2 (st.append grow id sl h).1 (kv.append id b) ∧
      Frame h st (st.append grow id sl h).2 (st.append grow id sl h).1 := by
  unfold StoreH.append KV.append appendSlice
  rw [s.2]
  dsimp only
  have si := i.shows id
  have hlen := si.len
  by_cases hc : (st id).len + b.length ≤ (st id).cap
  · rw [if_pos hc]
    dsimp only
    by_cases h0 : (st id).cap = 0
    · -- nothing to append, nothing there
      have hb : b = [] := List.eq_nil_of_length_eq_zero (by omega)
      subst hb
      have e : h.write (st id).arr ((st id).off + (st id).len) [] = h := by
        unfold Heap.write overwrite
        simp only [List.append_nil, List.length_nil, Nat.add_zero, List.take_append_drop]
        apply List.ext_getElem?
        intro j
        rw [List.getElem?_set]
        split
        · rename_i e; subst e
          split
          · rename_i hl; rw [List.getElem?_eq_getElem hl]; rfl
          · rename_i hl; rw [List.getElem?_eq_none (by omega)]
        · rfl
      have e2 : (fun k => if k = id then { st id with len := (st id).len + ([] : Bytes).length } else st k) = st := by
        funext k; split
        · rename_i e; subst e; simp
        · rfl
      have e3 : (fun k => if k = id then kv.store id ++ [] else kv.store k) = kv.store := by
        funext k; split
        · rename_i e; subst e; simp
        · rfl
      rw [e, e2, e3]
      exact ⟨i, Frame.of_kept (KeptH.refl h) st⟩
    · obtain ⟨⟨hl, hz | ⟨a, ha, hle⟩⟩, hr⟩ := si
      · exact absurd hz h0
      have hlt : (st id).arr < h.length := (List.getElem?_eq_some_iff.mp ha).1
      have hw : h.write (st id).arr ((st id).off + (st id).len) b =
          h.set (st id).arr (overwrite a ((st id).off + (st id).len) b) := by
        unfold Heap.write; rw [ha]; rfl
      rw [hw]
      have hself : (h.set (st id).arr (overwrite a ((st id).off + (st id).len) b))[(st id).arr]? =
          some (overwrite a ((st id).off + (st id).len) b) := by
        rw [List.getElem?_set_self hlt]
      have hother : ∀ x, x ≠ (st id).arr →
          (h.set (st id).arr (overwrite a ((st id).off + (st id).len) b))[x]? = h[x]? := fun x hx => by
        rw [List.getElem?_set_ne (Ne.symm hx)]
      have hol := Props.overwrite_length a b ((st id).off + (st id).len) (by omega)
      refine ⟨⟨fun k => ?_, fun k k' hkk => ?_⟩, ?_, ?_, ?_⟩
      · dsimp only
        by_cases hk : k = id
        · subst hk
          rw [if_pos rfl, if_pos rfl]
          refine ⟨⟨hc, Or.inr ⟨_, hself, by rw [hol]; exact hle⟩⟩, ?_⟩
          unfold Heap.read
          dsimp only
          rw [hself, Option.getD_some, Props.overwrite_extend a b _ _ (by omega)]
          rw [← hr]; unfold Heap.read; rw [ha]; rfl
        · rw [if_neg hk, if_neg hk]
          exact Holds.of_get (i.shows k) fun hcap => hother _ (i.own k id hk hcap h0)
      · have : ∀ x, (if x = id then { st id with len := (st id).len + b.length } else st x).cap = (st x).cap ∧
            (if x = id then { st id with len := (st id).len + b.length } else st x).arr = (st x).arr := by
          intro x; split
          · rename_i e; subst e; exact ⟨rfl, rfl⟩
          · exact ⟨rfl, rfl⟩
        rw [(this k).1, (this k).2, (this k').1, (this k').2]
        exact i.own k k' hkk
      · rw [List.length_set]
      · intro x hx hs
        exact hother x (Ne.symm (hs id h0))
      · intro k hk
        refine Or.inl ⟨k, ?_⟩
        by_cases e : k = id
        · subst e; rw [if_pos rfl] at hk ⊢; exact ⟨hk, rfl⟩
        · rw [if_neg e] at hk ⊢; exact ⟨hk, rfl⟩
  · rw [if_neg hc]
    dsimp only
    rw [si.2]
    generalize grow h (st id) b.length = spare
    have kk : KeptH h (h ++ [kv.store id ++ b ++ spare]) := KeptH.append _ _
    have hget : (h ++ [kv.store id ++ b ++ spare])[h.length]? = some (kv.store id ++ b ++ spare) := by simp
    refine ⟨⟨fun k => ?_, fun k k' hkk h1 h2 => ?_⟩, by simp, fun a ha _ => kk a ha, fun k hk => ?_⟩
    · dsimp only
      by_cases hk : k = id
      · subst hk
        rw [if_pos rfl, if_pos rfl]
        refine ⟨⟨Nat.le_add_right _ _, Or.inr ⟨_, hget, by simp; omega⟩⟩, ?_⟩
        unfold Heap.read
        dsimp only
        rw [hget, Option.getD_some, List.drop_zero, ← hlen, ← List.length_append]
        exact List.take_left
      · rw [if_neg hk, if_neg hk]
        exact (i.shows k).mono kk
    · by_cases e : k = id
      · by_cases e' : k' = id
        · exact absurd (e.trans e'.symm) hkk
        · rw [if_neg e'] at h2
          rw [if_pos e, if_neg e']
          have := Holds.arr_lt (i.shows k') h2
          dsimp only
          omega
      · rw [if_neg e] at h1
        by_cases e' : k' = id
        · rw [if_pos e', if_neg e]
          have := Holds.arr_lt (i.shows k) h1
          dsimp only
          omega
        · rw [if_neg e'] at h2
          rw [if_neg e', if_neg e]
          exact i.own k k' hkk h1 h2
    · by_cases e : k = id
      · rw [if_pos e] at hk ⊢; exact Or.inr (le_refl _)
      · rw [if_neg e] at hk ⊢; exact Or.inl ⟨k, hk, rfl⟩

/-- A call that may change the store does what the model on values says. -/
structure SimStore (h : Heap) (st : StoreH) (x : StoreH × Res Unit × Heap) (y : KV × Res Unit) : Prop where
  result : x.2.1 = y.2
  inv : StoreInv x.2.2 x.1 y.1
  frame : Frame h st x.2.2 x.1

theorem SimStore.of_frame {h1 h : Heap} {s1 st : StoreH} {x : StoreH × Res Unit × Heap} {y : KV × Res Unit}
    (f : Frame h1 s1 h st) (s : SimStore h st x y) : SimStore h1 s1 x y :=
  ⟨s.result, s.inv, f.trans s.frame⟩

/-- The outcomes of a call that leaves the store alone. -/
theorem does_cases {α β : Type} {h : Heap} {m : HM α} {r : Res β} {R : Memory → α → β → Prop} (d : Does h m r R) :
    (∃ a b h', m.run h = (.ok a, h') ∧ r = .ok b ∧ KeptH h h' ∧ R h'.mem a b) ∨
    (∃ e h', m.run h = (.err e, h') ∧ r = .err e ∧ KeptH h h') ∨
    (∃ p h', m.run h = (.panic p, h') ∧ r = .panic p ∧ KeptH h h') := by
  obtain ⟨k, d⟩ := d
  have k := keptH_iff.mpr k
  rcases hm : m.run h with ⟨a | a | a, h'⟩ <;> rw [hm] at k d <;> cases r <;> dsimp only [Agree] at k d
  · exact Or.inl ⟨_, _, _, rfl, rfl, k, d⟩
  · subst d; exact Or.inr (Or.inl ⟨_, _, rfl, rfl, k⟩)
  · subst d; exact Or.inr (Or.inr ⟨_, _, rfl, rfl, k⟩)

theorem insertVariants_sim (E : Ext) (grow : Growth) (s : Server) {u m : Slice} {ub mb : Bytes}
    (bucketIDHex : GoString) :
    ∀ (vs : List Slice) (vbs : List Bytes) (h : Heap) (st : StoreH) (kv : KV), StoreInv h st kv →
      Holds h u ub → Outside st u → Holds h m mb → Outside st m →
      List.Forall₂ (fun sl b => Holds h sl b ∧ Outside st sl) vs vbs →
      SimStore h st (insertVariantsH E grow s u m bucketIDHex vs st h)
        (insertVariants E s ub mb bucketIDHex vbs kv)
  | [], _, h, st, kv, i, _, _, _, _, .nil => ⟨rfl, i, Frame.of_kept (KeptH.refl h) st⟩
  | v :: vs, vb :: vbs, h, st, kv, i, hu, ou, hm, om, .cons hv hvs => by
    unfold insertVariantsH insertVariants
    rcases does_cases (encryptBucketEntry_sim E s MetadataSimilarPassword hu.shows hv.1.shows hm.shows).does with
      ⟨a, b, h', e1, e2, k, n⟩ | ⟨e, h', e1, e2, k⟩ | ⟨p, h', e1, e2, k⟩
    · rw [e1, e2]
      dsimp only
      obtain ⟨i', f'⟩ := append_inv grow (i.mono k) (newH_of n).holds bucketIDHex
      have f := (Frame.of_kept k st).trans f'
      refine SimStore.of_frame f (insertVariants_sim E grow s bucketIDHex vs vbs _ _ _ i' (f.shows hu ou)
        (f.outside hu ou) (f.shows hm om) (f.outside hm om) ?_)
      exact hvs.imp fun x y hxy => ⟨f.shows hxy.1 hxy.2, f.outside hxy.1 hxy.2⟩
    · rw [e1, e2]; exact ⟨rfl, i.mono k, Frame.of_kept k st⟩
    · rw [e1, e2]; exact ⟨rfl, i.mono k, Frame.of_kept k st⟩

theorem shows_nil (h : Heap) : Holds h Slice.nil [] :=
  ⟨⟨le_refl _, Or.inl rfl⟩, by unfold Heap.read Slice.nil; simp⟩

theorem insertUsername_sim (E : Ext) (grow : Growth) (s : Server) {u m : Slice} {ub mb : Bytes}
    (bucketIDHex : GoString) (inc : Bool) {h : Heap} {st : StoreH} {kv : KV} (i : StoreInv h st kv)
    (hu : Holds h u ub) (hm : Holds h m mb) :
    SimStore h st (insertUsernameH E grow s u m bucketIDHex inc st h)
      (insertUsername E s ub mb bucketIDHex inc kv) := by
  unfold insertUsernameH insertUsername
  split
  · rcases does_cases (encryptBucketEntry_sim E s MetadataBreachedUsername hu.shows (shows_nil h).shows hm.shows).does with
      ⟨a, b, h', e1, e2, k, n⟩ | ⟨e, h', e1, e2, k⟩ | ⟨p, h', e1, e2, k⟩
    · rw [e1, e2]
      obtain ⟨i', f'⟩ := append_inv grow (i.mono k) (newH_of n).holds bucketIDHex
      exact ⟨rfl, i', (Frame.of_kept k st).trans f'⟩
    · rw [e1, e2]; exact ⟨rfl, i.mono k, Frame.of_kept k st⟩
    · rw [e1, e2]; exact ⟨rfl, i.mono k, Frame.of_kept k st⟩
  · exact ⟨rfl, i, Frame.of_kept (KeptH.refl h) st⟩

theorem mutate_does {h : Heap} {p : Slice} {pb : Bytes} (hp : Holds h p pb) (rules : List Mutator.RDasRule) (num : Int) :
    Does h (Mutator.mutateH rules p num) (Mutator.mutate rules pb num) (Variants h.mem) :=
  (Mutator.mutate_sim hp.shows rules num).does

theorem insertRecord_sim (E : Ext) (grow : Growth) (s : Server) {u p m : Slice} {ub pb mb : Bytes} (num : Int)
    (inc : Bool) {h : Heap} {st : StoreH} {kv : KV} (i : StoreInv h st kv) (hu : Holds h u ub)
    (ou : Outside st u) (hp : Holds h p pb) (op : Outside st p) (hm : Holds h m mb) (om : Outside st m) :
    SimStore h st (insertRecordH E grow s u p m num inc st h) (insert E s ub pb mb num inc kv) := by
  unfold insertRecordH insert
  have hid : Does h (s.bucketIDH E u) (s.bucketID E ub) (fun _ x y => x = y) :=
    (bucketID_sim E s.bucketHasher s.bucketIDBitSize hu.shows).does
  rcases does_cases hid with
      ⟨id, id', h1, e1, e2, k1, e⟩ | ⟨e, h1, e1, e2, k1⟩ | ⟨q, h1, e1, e2, k1⟩
  · rw [e1, e2]
    subst e
    dsimp only
    rcases does_cases (encryptBucketEntry_sim E s MetadataBreachedPassword (hu.mono k1).shows (hp.mono k1).shows (hm.mono k1).shows).does with
      ⟨a, b, h2, e3, e4, k2, n⟩ | ⟨e, h2, e3, e4, k2⟩ | ⟨q, h2, e3, e4, k2⟩
    · rw [e3, e4]
      dsimp only
      have k := k1.trans k2
      obtain ⟨i', f'⟩ := append_inv grow (i.mono k) (newH_of n).holds (BucketIDToHex id)
      have f := (Frame.of_kept k st).trans f'
      refine SimStore.of_frame f ?_
      have hu' := f.shows hu ou
      have ou' := f.outside hu ou
      have hp' := f.shows hp op
      have hm' := f.shows hm om
      have om' := f.outside hm om
      clear hu ou hp op hm om e3 e4 n f f' i k k1 k2 e1 e2 hid
      generalize (st.append grow (BucketIDToHex id) a h2).1 = st' at *
      generalize (st.append grow (BucketIDToHex id) a h2).2 = h3 at *
      generalize kv.append (BucketIDToHex id) b = kv' at *
      unfold insertRestH
      rcases does_cases (mutate_does hp' Mutator.dasRules num) with
        ⟨vs, vbs, h4, e1, e2, k4, n4⟩ | ⟨e, h4, e1, e2, k4⟩ | ⟨q, h4, e1, e2, k4⟩
      · rw [e1, e2]
        dsimp only
        have i4 := i'.mono k4
        have hv := insertVariants_sim E grow s (BucketIDToHex id) vs vbs h4 st' kv' i4 (hu'.mono k4) ou'
          (hm'.mono k4) om' (n4.1.imp fun x y hxy => ⟨(newH_of hxy).holds, i'.outside_new (newH_of hxy)⟩)
        have f4 := (Frame.of_kept k4 st').trans hv.frame
        have hu5 := f4.shows hu' ou'
        have hm5 := f4.shows hm' om'
        obtain ⟨r5, i5, f5⟩ := hv
        rcases hx : insertVariantsH E grow s u m (BucketIDToHex id) vs st' h4 with ⟨st5, r, h5⟩
        rcases hy : insertVariants E s ub mb (BucketIDToHex id) vbs kv' with ⟨kv5, r'⟩
        rw [hx, hy] at r5 i5
        rw [hx] at f5 f4 hu5 hm5
        dsimp only at r5 i5 f5 f4 hu5 hm5
        subst r5
        cases r with
        | ok _ => exact SimStore.of_frame f4 (insertUsername_sim E grow s (BucketIDToHex id) inc i5 hu5 hm5)
        | err e => exact ⟨rfl, i5, f4⟩
        | panic q => exact ⟨rfl, i5, f4⟩
      · rw [e1, e2]; exact ⟨rfl, i'.mono k4, Frame.of_kept k4 st'⟩
      · rw [e1, e2]; exact ⟨rfl, i'.mono k4, Frame.of_kept k4 st'⟩
    · rw [e3, e4]; exact ⟨rfl, i.mono (k1.trans k2), Frame.of_kept (k1.trans k2) st⟩
    · rw [e3, e4]; exact ⟨rfl, i.mono (k1.trans k2), Frame.of_kept (k1.trans k2) st⟩
  · rw [e1, e2]; exact ⟨rfl, i.mono k1, Frame.of_kept k1 st⟩
  · rw [e1, e2]; exact ⟨rfl, i.mono k1, Frame.of_kept k1 st⟩

theorem reslice_holds {h : Heap} {sl : Slice} {b : Bytes} {lo hi : Nat} (s : Holds h sl b) (hl : lo ≤ hi)
    (hh : hi ≤ b.length) :
    Holds h ⟨sl.arr, sl.off + lo, hi - lo, sl.cap - lo⟩ ((b.take hi).drop lo) := by
  refine holds_of ?_ (reslice_shows s.shows hl hh)
  have hlen := s.len
  obtain ⟨⟨hc, h0 | ⟨a, ha, hle⟩⟩, hr⟩ := s
  · exact ⟨by dsimp only; omega, Or.inl (by dsimp only; omega)⟩
  · refine ⟨by dsimp only; omega, ?_⟩
    by_cases hz : sl.cap - lo = 0
    · exact Or.inl hz
    · exact Or.inr ⟨a, ha, by dsimp only; omega⟩

/-- The two parts of a line. -/
theorem splitN2_shows {h : Heap} {t : Slice} {line : Bytes} (ht : Holds h t line) (sep : UInt8) :
    (∃ u p ub pb, splitN2H t sep h = [u, p] ∧ splitN2 line sep = [ub, pb] ∧ Holds h u ub ∧ Holds h p pb ∧
      u.arr = t.arr ∧ p.arr = t.arr ∧ (t.cap = 0 → u.cap = 0 ∧ p.cap = 0)) ∨
    (splitN2H t sep h = [t] ∧ splitN2 line sep = [line]) := by
  unfold splitN2H splitN2
  rw [ht.2]
  have hl := ht.len
  have hcap := ht.1.1
  cases hi : line.idxOf? sep with
  | none => exact Or.inr ⟨rfl, rfl⟩
  | some i =>
    have hlt : i < line.length := by
      rw [List.idxOf?_eq_some_iff] at hi
      exact hi.choose
    left
    refine ⟨_, _, _, _, rfl, rfl, ?_, ?_, rfl, rfl, fun h0 => ?_⟩
    · have := reslice_holds ht (Nat.zero_le i) (le_of_lt hlt)
      rw [List.drop_zero, Nat.add_zero, Nat.sub_zero, Nat.sub_zero] at this
      obtain ⟨⟨_, hv⟩, hr⟩ := this
      refine ⟨⟨le_refl _, ?_⟩, hr⟩
      rcases hv with hv | ⟨a, ha, hle⟩
      · dsimp only at hv; omega
      · exact Or.inr ⟨a, ha, by dsimp only at hle ⊢; omega⟩
    · have := reslice_holds ht (lo := i + 1) (hi := line.length) (by omega) (le_refl _)
      rw [List.take_length, hl] at this
      exact this
    · omega

theorem Outside.arr {st : StoreH} {t u : Slice} (o : Outside st t) (e : u.arr = t.arr) (c : t.cap = 0 → u.cap = 0) :
    Outside st u := by
  rcases o with o | o
  · exact Or.inl (c o)
  · exact Or.inr fun k hk => by rw [e]; exact o k hk

/-- One line, on values. -/
def loadLine (E : Ext) (s : Server) (metadata : Bytes) (numVariants : Int) (includeUsernameVariant : Bool)
    (line : Bytes) (kv : KV) : KV × Res Bool :=
  match splitN2 line 58 with
  | [username, password] =>
    match insert E s username password metadata numVariants includeUsernameVariant kv with
    | (kv, .panic p) => (kv, .panic p)
    | (kv, .err _) => (kv, .ok false)
    | (kv, .ok ()) => (kv, .ok true)
  | _ => (kv, .ok false)

theorem loadLine_sim (E : Ext) (grow : Growth) (s : Server) (metadata : GoString) (num : Int) (inc : Bool)
    {h : Heap} {st : StoreH} {kv : KV} {t : Slice} {line : Bytes} (i : StoreInv h st kv) (ht : Holds h t line)
    (ot : Outside st t) :
    (loadLineH E grow s metadata num inc t st h).2.1 = (loadLine E s metadata num inc line kv).2 ∧
    StoreInv (loadLineH E grow s metadata num inc t st h).2.2 (loadLineH E grow s metadata num inc t st h).1
      (loadLine E s metadata num inc line kv).1 ∧
    Frame h st (loadLineH E grow s metadata num inc t st h).2.2 (loadLineH E grow s metadata num inc t st h).1 := by
  unfold loadLineH loadLine
  rcases splitN2_shows ht 58 with ⟨u, p, ub, pb, e1, e2, hu, hp, au, ap, hc⟩ | ⟨e1, e2⟩
  · rw [e1, e2]
    dsimp only
    have k : KeptH h (h ++ [metadata]) := KeptH.append _ _
    have nm := newH_append h metadata
    have sim := insertRecord_sim E grow s num inc (i.mono k) (hu.mono k) (ot.arr au fun h => (hc h).1)
      (hp.mono k) (ot.arr ap fun h => (hc h).2) nm.holds (i.outside_new nm)
    have f := (Frame.of_kept k st).trans sim.frame
    obtain ⟨r5, i5, _⟩ := sim
    rcases hx : insertRecordH E grow s u p ⟨h.length, 0, metadata.length, metadata.length⟩ num inc st
      (h ++ [metadata]) with ⟨st5, r, h5⟩
    rcases hy : insert E s ub pb metadata num inc kv with ⟨kv5, r'⟩
    rw [hx, hy] at r5 i5
    rw [hx] at f
    dsimp only at r5 i5 f
    subst r5
    cases r with
    | ok _ => exact ⟨rfl, i5, f⟩
    | err e => exact ⟨rfl, i5, f⟩
    | panic q => exact ⟨rfl, i5, f⟩
  · rw [e1, e2]
    exact ⟨rfl, i, Frame.of_kept (KeptH.refl h) st⟩

theorem loadLines_cons (E : Ext) (s : Server) (metadata : Bytes) (num : Int) (inc : Bool) (line : Bytes)
    (lines : List Bytes) (kv : KV) (su fa : Nat) :
    loadLines E s metadata num inc (line :: lines) kv su fa =
      match loadLine E s metadata num inc line kv with
      | (kv, .ok true) => loadLines E s metadata num inc lines kv (su + 1) fa
      | (kv, .ok false) => loadLines E s metadata num inc lines kv su (fa + 1)
      | (kv, .err _) => .done kv su fa
      | (_, .panic p) => .crashed p := by
  conv_lhs => unfold loadLines
  unfold loadLine
  rcases splitN2 line 58 with _ | ⟨u, _ | ⟨p, _ | ⟨q, r⟩⟩⟩
  · rfl
  · rfl
  · dsimp only
    rcases insert E s u p metadata num inc kv with ⟨kv', _ | _ | _⟩ <;> rfl
  · rfl

/-- The invariant of the loop: the store's arrays are not the scanner's. -/
structure LoadInv (own : Nat → Prop) (h : Heap) (st : StoreH) (kv : KV) : Prop where
  inv : StoreInv h st kv
  apart : ∀ k, (st k).cap ≠ 0 → ¬ own (st k).arr

theorem LoadInv.scan {own own' : Nat → Prop} {h h' : Heap} {st : StoreH} {kv : KV} {line : Bytes} {t : Slice}
    (i : LoadInv own h st kv) (s : ScanStep own h line own' h' t) :
    StoreInv h' st kv ∧ (∀ k, (st k).cap ≠ 0 → ¬ own' (st k).arr) ∧ Outside st t := by
  have ha : ∀ k, (st k).cap ≠ 0 → ¬ own' (st k).arr := fun k hk ho => by
    rcases s.owned _ ho with ho | ho
    · exact i.apart k hk ho
    · have := Holds.arr_lt (i.inv.shows k) hk; omega
  refine ⟨⟨fun k => ?_, i.inv.own⟩, ha, Or.inr fun k hk e => ha k hk (e ▸ s.token_own)⟩
  exact Holds.of_get (i.inv.shows k) fun hc =>
    s.others _ (Holds.arr_lt (i.inv.shows k) hc) (i.apart k hc)

theorem ScanStep.own_lt {own own' : Nat → Prop} {h h' : Heap} {line : Bytes} {t : Slice}
    (s : ScanStep own h line own' h' t) (hb : ∀ a, own a → a < h.length) : ∀ a, own' a → a < h'.length :=
  fun a ha => by
    rcases s.owned a ha with h | h
    · exact lt_of_lt_of_le (hb a h) s.grows
    · exact h.2

theorem LoadInv.line {own : Nat → Prop} {h h' : Heap} {st st' : StoreH} {kv' : KV} (hb : ∀ a, own a → a < h.length)
    (ha : ∀ k, (st k).cap ≠ 0 → ¬ own (st k).arr) (f : Frame h st h' st') (i : StoreInv h' st' kv') :
    LoadInv own h' st' kv' := by
  refine ⟨i, fun k hk ho => ?_⟩
  rcases f.arrs k hk with ⟨k', hk', e⟩ | hle
  · exact ha k' hk' (e ▸ ho)
  · have := hb _ ho; omega

/-- What the loop leads to, compared with the loop on values. -/
def LoadShows : LoadH → Load → Prop
  | .done st h su fa, .done kv su' fa' => su = su' ∧ fa = fa' ∧ ∀ id, Holds h (st id) (kv.store id)
  | .crashed p, .crashed p' => p = p'
  | _, _ => False

theorem import_sim (E : Ext) (grow : Growth) (s : Server) (metadata : GoString) (num : Int) (inc : Bool)
    {own : Nat → Prop} {h : Heap} {st : StoreH} {su fa : Nat} {lines : List Bytes} {r : LoadH}
    (run : ImportRun E grow s metadata num inc own h st su fa lines r) :
    ∀ kv, LoadInv own h st kv → (∀ a, own a → a < h.length) →
      LoadShows r (loadLines E s metadata num inc lines kv su fa) := by
  induction run with
  | done own h st su fa => exact fun kv i _ => ⟨rfl, rfl, i.inv.shows⟩
  | success sc hl _ ih =>
    intro kv i hb
    obtain ⟨i1, ha, ot⟩ := i.scan sc
    have sim := loadLine_sim E grow s metadata num inc i1 ⟨sc.token_valid, sc.token_shows⟩ ot
    rw [hl] at sim
    obtain ⟨e, i2, f⟩ := sim
    have hb' := sc.own_lt hb
    have := ih _ (LoadInv.line hb' ha f i2) fun a h => lt_of_lt_of_le (hb' a h) f.len
    rw [loadLines_cons]
    rcases hx : loadLine E s metadata num inc _ kv with ⟨kv', r'⟩
    rw [hx] at e this
    dsimp only at e this
    rw [← e]; exact this
  | failure sc hl _ ih =>
    intro kv i hb
    obtain ⟨i1, ha, ot⟩ := i.scan sc
    have sim := loadLine_sim E grow s metadata num inc i1 ⟨sc.token_valid, sc.token_shows⟩ ot
    rw [hl] at sim
    obtain ⟨e, i2, f⟩ := sim
    have hb' := sc.own_lt hb
    have := ih _ (LoadInv.line hb' ha f i2) fun a h => lt_of_lt_of_le (hb' a h) f.len
    rw [loadLines_cons]
    rcases hx : loadLine E s metadata num inc _ kv with ⟨kv', r'⟩
    rw [hx] at e this
    dsimp only at e this
    rw [← e]; exact this
  | crash sc hl =>
    intro kv i hb
    obtain ⟨i1, ha, ot⟩ := i.scan sc
    have sim := loadLine_sim E grow s metadata num inc i1 ⟨sc.token_valid, sc.token_shows⟩ ot
    rw [hl] at sim
    obtain ⟨e, i2, f⟩ := sim
    rw [loadLines_cons]
    rcases hx : loadLine E s metadata num inc _ kv with ⟨kv', r'⟩
    rw [hx] at e
    dsimp only at e
    rw [← e]; exact rfl

end Migp
