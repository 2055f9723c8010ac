import Verif.Model.KVHeap
import Mathlib.Tactic.Tauto
/-!
# C47: what `Get` returns is a snapshot, although slices share memory
-/
namespace Migp.Props
open Migp.Spec

/-- The store's slices are valid and own their arrays. -/
structure HeapInv (st : HeapKV) : Prop where
  valid : ∀ k, st.Valid (st.store k)
  own : ∀ k k', k ≠ k' → (st.store k).cap ≠ 0 → (st.store k').cap ≠ 0 →
    (st.store k).arr ≠ (st.store k').arr

/-- A slice that no later `append` can write to: it ends before the stored slice on its array ends. -/
def HeapSafe (st : HeapKV) (sl : Slice) : Prop :=
  sl.len = 0 ∨ ((∃ a, st.mem sl.arr = some a ∧ sl.off + sl.len ≤ a.length) ∧
    ∀ k, (st.store k).cap ≠ 0 → (st.store k).arr = sl.arr →
      sl.off + sl.len ≤ (st.store k).off + (st.store k).len)

theorem heapInv_start (mem : Nat → Option Bytes) : HeapInv (HeapKV.start mem) :=
  ⟨fun _ => ⟨le_refl _, Or.inl rfl⟩, fun _ _ _ h => absurd rfl h⟩

theorem heapSafe_get {st : HeapKV} (hi : HeapInv st) (k : GoString) : HeapSafe st (st.get k) := by
  unfold HeapKV.get
  obtain ⟨hl, h0 | ⟨a, ha, hle⟩⟩ := hi.valid k
  · left; omega
  · by_cases hc : (st.store k).cap = 0
    · left; omega
    · right
      refine ⟨⟨a, ha, by omega⟩, fun k' hk' e => ?_⟩
      by_cases hkk : k' = k
      · subst hkk; exact le_refl _
      · exact absurd e (hi.own k' k hkk hk' hc)

theorem read_congr {st st' : HeapKV} {sl : Slice} (h : st'.mem sl.arr = st.mem sl.arr) :
    st'.read sl = st.read sl := by unfold HeapKV.read; rw [h]

theorem read_len0 {st : HeapKV} {sl : Slice} (h : sl.len = 0) : st.read sl = [] := by
  unfold HeapKV.read; simp [h]

theorem read_length {st : HeapKV} {sl : Slice} (h : st.Valid sl) : (st.read sl).length = sl.len := by
  obtain ⟨hl, h0 | ⟨a, ha, hle⟩⟩ := h
  · rw [read_len0 (by omega)]; simp; omega
  · unfold HeapKV.read; simp [ha]; omega

theorem overwrite_length (a v : Bytes) (pos : Nat) (h : pos + v.length ≤ a.length) :
    (overwrite a pos v).length = a.length := by
  unfold overwrite; simp; omega

theorem overwrite_before (a v : Bytes) (pos off len : Nat) (h : off + len ≤ pos)
    (hp : pos ≤ a.length) :
    ((overwrite a pos v).drop off).take len = (a.drop off).take len := by
  unfold overwrite
  rw [List.append_assoc, List.drop_append_of_le_length (by simp; omega),
    List.take_append_of_le_length (by simp; omega), List.drop_take, List.take_take]
  congr 1; omega

theorem overwrite_extend (a v : Bytes) (off len : Nat) (h : off + len + v.length ≤ a.length) :
    ((overwrite a (off + len) v).drop off).take (len + v.length) = (a.drop off).take len ++ v := by
  unfold overwrite
  rw [List.append_assoc, List.drop_append_of_le_length (by simp; omega), List.drop_take,
    List.take_append]
  have h1 : ((a.drop off).take (off + len - off)).length = len := by simp; omega
  rw [h1, show off + len - off = len by omega, show len + v.length - len = v.length by omega,
    List.take_take, show min (len + v.length) len = len by omega]
  simp

/-- One step that puts no shared slice keeps the invariant, keeps safe slices safe and does not change
what they show. -/
theorem heap_step {st st' : HeapKV} {ev : HeapEv} (hi : HeapInv st) (h : HeapKV.Step st ev st')
    (hp : ∀ key sl, ev ≠ .put key sl) :
    HeapInv st' ∧ ∀ sl, HeapSafe st sl → HeapSafe st' sl ∧ st'.read sl = st.read sl := by
  cases h with
  | put key sl => exact absurd rfl (hp key sl)
  | alloc b a ha =>
    refine ⟨⟨fun k => ?_, hi.own⟩, fun sl hs => ?_⟩
    · obtain ⟨hl, h0 | ⟨c, hc, hle⟩⟩ := hi.valid k
      · exact ⟨hl, Or.inl h0⟩
      · refine ⟨hl, Or.inr ⟨c, ?_, hle⟩⟩
        have : (st.store k).arr ≠ a := by intro e; rw [e, ha] at hc; cases hc
        simp [this, hc]
    · rcases hs with h0 | ⟨⟨c, hc, hle⟩, hk⟩
      · exact ⟨Or.inl h0, by rw [read_len0 h0, read_len0 h0]⟩
      · have : sl.arr ≠ a := by intro e; rw [e, ha] at hc; cases hc
        exact ⟨Or.inr ⟨⟨c, by simp [this, hc], hle⟩, hk⟩, read_congr (by simp [this])⟩
  | putNew key b spare a ha =>
    have hold : ∀ k, (st.store k).cap ≠ 0 → (st.store k).arr ≠ a := by
      intro k hk e
      obtain ⟨hl, h0 | ⟨c, hc, hle⟩⟩ := hi.valid k
      · exact hk h0
      · rw [e, ha] at hc; cases hc
    refine ⟨⟨fun k => ?_, fun k k' hkk hc hc' => ?_⟩, fun sl hs => ?_⟩
    · by_cases hk : k = key
      · simp only [hk, if_true]
        exact ⟨by simp, Or.inr ⟨b ++ spare, by simp, by simp⟩⟩
      · simp only [hk, if_false]
        obtain ⟨hl, h0 | ⟨c, hc, hle⟩⟩ := hi.valid k
        · exact ⟨hl, Or.inl h0⟩
        · refine ⟨hl, Or.inr ⟨c, ?_, hle⟩⟩
          have : (st.store k).arr ≠ a := by intro e; rw [e, ha] at hc; cases hc
          simp [this, hc]
    · dsimp only at hc hc' ⊢
      by_cases hk : k = key
      · have hk' : k' ≠ key := fun e => hkk (hk.trans e.symm)
        rw [if_neg hk'] at hc' ⊢
        rw [if_pos hk]
        exact (hold k' hc').symm
      · rw [if_neg hk] at hc ⊢
        by_cases hk' : k' = key
        · rw [if_pos hk']; exact hold k hc
        · rw [if_neg hk'] at hc' ⊢; exact hi.own k k' hkk hc hc'
    · rcases hs with h0 | ⟨⟨c, hc, hle⟩, hk⟩
      · exact ⟨Or.inl h0, by rw [read_len0 h0, read_len0 h0]⟩
      · have hne : sl.arr ≠ a := by intro e; rw [e, ha] at hc; cases hc
        refine ⟨Or.inr ⟨⟨c, by simp [hne, hc], hle⟩, fun k hck e => ?_⟩, read_congr (by simp [hne])⟩
        dsimp only at hck e ⊢
        by_cases hkk : k = key
        · rw [if_pos hkk] at e; exact absurd e.symm hne
        · rw [if_neg hkk] at hck e ⊢; exact hk k hck e
  | appendGrow key v spare a hcap ha =>
    have hold : ∀ k, (st.store k).cap ≠ 0 → (st.store k).arr ≠ a := by
      intro k hk e
      obtain ⟨hl, h0 | ⟨c, hc, hle⟩⟩ := hi.valid k
      · exact hk h0
      · rw [e, ha] at hc; cases hc
    refine ⟨⟨fun k => ?_, fun k k' hkk hc hc' => ?_⟩, fun sl hs => ?_⟩
    · by_cases hk : k = key
      · simp only [hk, if_true]
        refine ⟨by simp, Or.inr ⟨_, by simp; rfl, ?_⟩⟩
        simp [read_length (hi.valid key)]; omega
      · simp only [hk, if_false]
        obtain ⟨hl, h0 | ⟨c, hc, hle⟩⟩ := hi.valid k
        · exact ⟨hl, Or.inl h0⟩
        · refine ⟨hl, Or.inr ⟨c, ?_, hle⟩⟩
          have : (st.store k).arr ≠ a := by intro e; rw [e, ha] at hc; cases hc
          simp [this, hc]
    · dsimp only at hc hc' ⊢
      by_cases hk : k = key
      · have hk' : k' ≠ key := fun e => hkk (hk.trans e.symm)
        rw [if_neg hk'] at hc' ⊢
        rw [if_pos hk]
        exact (hold k' hc').symm
      · rw [if_neg hk] at hc ⊢
        by_cases hk' : k' = key
        · rw [if_pos hk']; exact hold k hc
        · rw [if_neg hk'] at hc' ⊢; exact hi.own k k' hkk hc hc'
    · rcases hs with h0 | ⟨⟨c, hc, hle⟩, hk⟩
      · exact ⟨Or.inl h0, by rw [read_len0 h0, read_len0 h0]⟩
      · have hne : sl.arr ≠ a := by intro e; rw [e, ha] at hc; cases hc
        refine ⟨Or.inr ⟨⟨c, by simp [hne, hc], hle⟩, fun k hck e => ?_⟩, read_congr (by simp [hne])⟩
        dsimp only at hck e ⊢
        by_cases hkk : k = key
        · rw [if_pos hkk] at e; exact absurd e.symm hne
        · rw [if_neg hkk] at hck e ⊢; exact hk k hck e
  | appendInPlace key v a hcap ha =>
    by_cases hv : v = []
    · subst hv
      have hst : (fun k => if k = key then { st.store key with len := (st.store key).len + ([] : Bytes).length }
           else st.store k) = st.store := by
        funext k; by_cases hk : k = key
        · subst hk; simp
        · simp [hk]
      have hmem : (fun x => if ([] : Bytes) ≠ [] ∧ x = (st.store key).arr then
            some (overwrite a ((st.store key).off + (st.store key).len) []) else st.mem x) = st.mem := by
        funext x; simp
      rw [hst, hmem]
      exact ⟨hi, fun sl hs => ⟨hs, rfl⟩⟩
    · have ha := ha hv
      have hvl : 0 < v.length := List.length_pos_iff.mpr hv
      have hc0 : (st.store key).cap ≠ 0 := by omega
      have hbound : (st.store key).off + (st.store key).cap ≤ a.length := by
        obtain ⟨hl, h0 | ⟨c, hc, hle⟩⟩ := hi.valid key
        · exact absurd h0 hc0
        · rw [ha] at hc; injection hc with hc; subst hc; exact hle
      have hol := overwrite_length a v ((st.store key).off + (st.store key).len) (by omega)
      have hpos : ∀ x, (if v ≠ [] ∧ x = (st.store key).arr then
            some (overwrite a ((st.store key).off + (st.store key).len) v) else st.mem x) =
          if x = (st.store key).arr then
            some (overwrite a ((st.store key).off + (st.store key).len) v) else st.mem x := by
        intro x; simp [hv]
      simp only [hpos]
      refine ⟨⟨fun k => ?_, fun k k' hkk hc hc' => ?_⟩, fun sl hs => ?_⟩
      · by_cases hk : k = key
        · simp only [hk, if_true]
          exact ⟨hcap, Or.inr ⟨_, by simp; rfl, by rw [hol]; exact hbound⟩⟩
        · simp only [hk, if_false]
          obtain ⟨hl, h0 | ⟨c, hc, hle⟩⟩ := hi.valid k
          · exact ⟨hl, Or.inl h0⟩
          · by_cases hcc : (st.store k).cap = 0
            · exact ⟨hl, Or.inl hcc⟩
            · have := hi.own k key hk hcc hc0
              exact ⟨hl, Or.inr ⟨c, by simp [this, hc], hle⟩⟩
      · dsimp only at hc hc' ⊢
        have e : ∀ j, (if j = key then { st.store key with len := (st.store key).len + v.length }
            else st.store j).cap = (st.store j).cap := by
          intro j; by_cases hj : j = key
          · subst hj; simp
          · simp [hj]
        have e' : ∀ j, (if j = key then { st.store key with len := (st.store key).len + v.length }
            else st.store j).arr = (st.store j).arr := by
          intro j; by_cases hj : j = key
          · subst hj; simp
          · simp [hj]
        rw [e] at hc hc'
        rw [e', e']
        exact hi.own k k' hkk hc hc'
      · rcases hs with h0 | ⟨⟨c, hc, hle⟩, hk⟩
        · exact ⟨Or.inl h0, by rw [read_len0 h0, read_len0 h0]⟩
        · have hks : ∀ k, (if k = key then { st.store key with len := (st.store key).len + v.length }
              else st.store k).cap ≠ 0 →
              (if k = key then { st.store key with len := (st.store key).len + v.length }
              else st.store k).arr = sl.arr → sl.off + sl.len ≤
              (if k = key then { st.store key with len := (st.store key).len + v.length }
              else st.store k).off +
              (if k = key then { st.store key with len := (st.store key).len + v.length }
              else st.store k).len := by
            intro k hck e
            by_cases hkk : k = key
            · rw [if_pos hkk] at e ⊢
              have := hk key hc0 e
              dsimp only; omega
            · rw [if_neg hkk] at hck e ⊢; exact hk k hck e
          by_cases hne : sl.arr = (st.store key).arr
          · have hac : a = c := by rw [hne, ha] at hc; injection hc
            subst hac
            have := hk key hc0 hne.symm
            refine ⟨Or.inr ⟨⟨_, by simp [hne]; rfl, by rw [hol]; exact hle⟩, hks⟩, ?_⟩
            unfold HeapKV.read
            simp only [hne, if_true, ha, Option.getD_some]
            exact overwrite_before _ _ _ _ _ this (by omega)
          · exact ⟨Or.inr ⟨⟨c, by simp [hne, hc], hle⟩, hks⟩, read_congr (by simp [hne])⟩

theorem heap_run {st st' : HeapKV} {evs : List HeapEv} (hi : HeapInv st) (h : HeapKV.Run st evs st')
    (hp : NoSharedPut evs) :
    HeapInv st' ∧ ∀ sl, HeapSafe st sl → HeapSafe st' sl ∧ st'.read sl = st.read sl := by
  induction h with
  | nil => exact ⟨hi, fun sl hs => ⟨hs, rfl⟩⟩
  | cons hstep _ ih =>
    obtain ⟨hi1, hs1⟩ := heap_step hi hstep (fun key sl e => hp key sl (by rw [e]; simp))
    obtain ⟨hi2, hs2⟩ := ih hi1 (fun key sl hm => hp key sl (List.mem_cons_of_mem _ hm))
    refine ⟨hi2, fun sl hs => ?_⟩
    obtain ⟨a, b⟩ := hs1 sl hs
    obtain ⟨c, d⟩ := hs2 sl a
    exact ⟨c, d.trans b⟩

/-- C47: take any run of the store (with any growth policy) in which no caller puts a slice whose
array is shared, read a key, and continue in any such way: the slice handed out still shows the bytes it
showed when it was handed out. -/
theorem C47_snapshot (mem : Nat → Option Bytes) (before after : List HeapEv) (st st' : HeapKV)
    (key : GoString) (h1 : HeapKV.Run (HeapKV.start mem) before st) (h2 : HeapKV.Run st after st')
    (hp1 : NoSharedPut before) (hp2 : NoSharedPut after) :
    st'.read (st.get key) = st.read (st.get key) :=
  ((heap_run (heap_run (heapInv_start mem) h1 hp1).1 h2 hp2).2 _
    (heapSafe_get (heap_run (heapInv_start mem) h1 hp1).1 key)).2

/-- C47: in particular an `append` in place writes to bytes of the array outside every slice handed out
before, so reading such a slice without holding the lock is not a data race. -/
theorem C47_no_overlap (mem : Nat → Option Bytes) (before after : List HeapEv) (st st' : HeapKV)
    (key k : GoString) (h1 : HeapKV.Run (HeapKV.start mem) before st) (h2 : HeapKV.Run st after st')
    (hp1 : NoSharedPut before) (hp2 : NoSharedPut after) (v : Bytes)
    (hin : (st'.store k).len + v.length ≤ (st'.store k).cap) (i : Nat)
    (hi : (st.get key).off ≤ i ∧ i < (st.get key).off + (st.get key).len)
    (hw : (st'.store k).off + (st'.store k).len ≤ i ∧
      i < (st'.store k).off + (st'.store k).len + v.length) :
    (st.get key).arr ≠ (st'.store k).arr := by
  have hs := ((heap_run (heap_run (heapInv_start mem) h1 hp1).1 h2 hp2).2 _
    (heapSafe_get (heap_run (heapInv_start mem) h1 hp1).1 key)).1
  rcases hs with h0 | ⟨_, hk⟩
  · omega
  · intro e
    have := hk k (by omega) e.symm
    omega

/-- What one step does to the bytes under each key. -/
theorem heap_step_read {st st' : HeapKV} {ev : HeapEv} (hi : HeapInv st) (h : HeapKV.Step st ev st')
    (hp : ∀ key sl, ev ≠ .put key sl) (kv : KV) (hkv : ∀ k, kv.store k = st.read (st.store k)) :
    ∀ k, ((kv.run ev.op.toList).1).store k = st'.read (st'.store k) := by
  have hkeep := (heap_step hi h hp).2
  have hget : ∀ k, st'.read (st.store k) = st.read (st.store k) := fun k =>
    (hkeep _ (heapSafe_get hi k)).2
  intro k
  cases h with
  | put key sl => exact absurd rfl (hp key sl)
  | alloc b a ha => exact (hkv k).trans (hget k).symm
  | putNew key b spare a ha =>
    by_cases hk : k = key
    · simp [HeapEv.op, KV.run, KV.call, KV.put, hk, HeapKV.read]
    · simp only [HeapEv.op, Option.toList, KV.run, KV.call, KV.put, hk, if_false]
      exact (hkv k).trans (hget k).symm
  | appendGrow key v spare a hcap ha =>
    by_cases hk : k = key
    · simp only [HeapEv.op, Option.toList, KV.run, KV.call, KV.append, hk, if_true]
      rw [hkv]
      have hl := read_length (hi.valid key)
      generalize st.read (st.store key) = r at hl
      unfold HeapKV.read
      rw [← hl]
      simp only [if_true, Option.getD_some, List.drop_zero]
      rw [← List.length_append, List.take_left]
    · simp only [HeapEv.op, Option.toList, KV.run, KV.call, KV.append, hk, if_false]
      exact (hkv k).trans (hget k).symm
  | appendInPlace key v a hcap ha =>
    by_cases hk : k = key
    · simp only [HeapEv.op, Option.toList, KV.run, KV.call, KV.append, hk, if_true]
      rw [hkv]
      by_cases hv : v = []
      · subst hv
        simp [HeapKV.read]
      · have ha := ha hv
        have hvl : 0 < v.length := List.length_pos_iff.mpr hv
        have hbound : (st.store key).off + (st.store key).cap ≤ a.length := by
          obtain ⟨hl, h0 | ⟨c, hc, hle⟩⟩ := hi.valid key
          · omega
          · rw [ha] at hc; injection hc with hc; subst hc; exact hle
        unfold HeapKV.read
        simp only [hv, ne_eq, not_false_eq_true, true_and, if_true, Option.getD_some, ha]
        exact (overwrite_extend a v _ _ (by omega)).symm
    · simp only [HeapEv.op, Option.toList, KV.run, KV.call, KV.append, hk, if_false]
      exact (hkv k).trans (hget k).symm

theorem heap_run_read {st st' : HeapKV} {evs : List HeapEv} (hi : HeapInv st)
    (h : HeapKV.Run st evs st') (hp : NoSharedPut evs) (kv : KV)
    (hkv : ∀ k, kv.store k = st.read (st.store k)) :
    ∀ k, ((kv.run (evs.filterMap HeapEv.op)).1).store k = st'.read (st'.store k) := by
  induction h generalizing kv with
  | nil => exact hkv
  | @cons st st1 st2 ev evs hstep _ ih =>
    have hev : ∀ key sl, ev ≠ .put key sl := fun key sl e => hp key sl (by rw [e]; simp)
    have h1 := heap_step_read hi hstep hev kv hkv
    have hi1 := (heap_step hi hstep hev).1
    have h2 := ih hi1 (fun key sl hm => hp key sl (List.mem_cons_of_mem _ hm)) _ h1
    intro k
    rw [← h2 k, List.filterMap_cons]
    cases hop : ev.op with
    | none => rfl
    | some op => rfl

/-- C47, C46: the bytes that `Get` shows are those of the store of values, for every growth policy:
sharing of memory is not observable. -/
theorem C47_refines (mem : Nat → Option Bytes) (evs : List HeapEv) (st : HeapKV) (key : GoString)
    (h : HeapKV.Run (HeapKV.start mem) evs st) (hp : NoSharedPut evs) :
    (newKVStore.run (evs.filterMap HeapEv.op)).1.get key = .ok (st.read (st.get key)) := by
  have := heap_run_read (heapInv_start mem) h hp newKVStore
    (fun k => (read_len0 (st := HeapKV.start mem) (sl := Slice.nil) rfl).symm) key
  unfold KV.get
  rw [this]
  rfl

/-- C47: without the condition on `Put` this fails. A caller that puts one slice with spare capacity
under two keys and appends to both finds the second append's byte under the first key, also in a slice that
`Get` had handed out before. -/
theorem C47_hazard : ∃ (mem : Nat → Option Bytes) (before after : List HeapEv) (st st' : HeapKV)
    (k₁ k₂ : GoString), k₁ ≠ k₂ ∧ HeapKV.Run (HeapKV.start mem) before st ∧
      HeapKV.Run st after st' ∧ (∀ ev ∈ after, ∃ b, ev = .append k₂ b) ∧
      st.read (st.get k₁) = [1, 7] ∧ st'.read (st.get k₁) = [1, 9] ∧
      st'.read (st'.get k₁) = [1, 9] := by
  let sl : Slice := ⟨5, 0, 1, 2⟩
  let mem : Nat → Option Bytes := fun x => if x = 5 then some [1, 0] else none
  let st0 : HeapKV := HeapKV.start mem
  let k₁ : GoString := ascii "a"
  let k₂ : GoString := ascii "b"
  let st1 : HeapKV := ⟨st0.mem, fun k => if k = k₁ then sl else st0.store k⟩
  let st2 : HeapKV := ⟨st1.mem, fun k => if k = k₂ then sl else st1.store k⟩
  let st3 : HeapKV := ⟨fun x => if ([7] : Bytes) ≠ [] ∧ x = (st2.store k₁).arr then
            some (overwrite [1, 0] ((st2.store k₁).off + (st2.store k₁).len) [7]) else st2.mem x,
         fun k => if k = k₁ then { st2.store k₁ with len := (st2.store k₁).len + ([7] : Bytes).length }
           else st2.store k⟩
  let st4 : HeapKV := ⟨fun x => if ([9] : Bytes) ≠ [] ∧ x = (st3.store k₂).arr then
            some (overwrite [1, 7] ((st3.store k₂).off + (st3.store k₂).len) [9]) else st3.mem x,
         fun k => if k = k₂ then { st3.store k₂ with len := (st3.store k₂).len + ([9] : Bytes).length }
           else st3.store k⟩
  refine ⟨mem, [.put k₁ sl, .put k₂ sl, .append k₁ [7]], [.append k₂ [9]], st3, st4, k₁, k₂,
    by decide, ?_, ?_, ?_, by decide, by decide, by decide⟩
  · refine .cons (.put st0 k₁ sl ⟨by decide, Or.inr ⟨[1, 0], rfl, by decide⟩⟩) ?_
    refine .cons (.put st1 k₂ sl ⟨by decide, Or.inr ⟨[1, 0], rfl, by decide⟩⟩) ?_
    exact .cons (.appendInPlace st2 k₁ [7] [1, 0] (by decide) (fun _ => by decide)) (.nil _)
  · exact .cons (.appendInPlace st3 k₂ [9] [1, 7] (by decide) (fun _ => by decide)) (.nil _)
  · intro ev hev
    simp only [List.mem_singleton] at hev
    exact ⟨_, hev⟩

/-- The hypotheses of `C47_snapshot` are met by a run in which the second append writes into the array
of the slice handed out before it. -/
example : ∃ st st' : HeapKV, HeapKV.Run (HeapKV.start fun _ => none) [.append (ascii "k") [1, 2]] st ∧
    HeapKV.Run st [.append (ascii "k") [3]] st' ∧ (st'.get (ascii "k")).arr = (st.get (ascii "k")).arr ∧
    st'.read (st.get (ascii "k")) = [1, 2] ∧ st'.read (st'.get (ascii "k")) = [1, 2, 3] := by
  let st0 : HeapKV := HeapKV.start fun _ => none
  let k : GoString := ascii "k"
  let st1 : HeapKV := ⟨fun x => if x = 0 then some (st0.read (st0.store k) ++ [1, 2] ++ [0, 0]) else st0.mem x,
         fun j => if j = k then
             ⟨0, 0, (st0.store k).len + ([1, 2] : Bytes).length,
               (st0.store k).len + ([1, 2] : Bytes).length + ([0, 0] : Bytes).length⟩
           else st0.store j⟩
  let st2 : HeapKV := ⟨fun x => if ([3] : Bytes) ≠ [] ∧ x = (st1.store k).arr then
            some (overwrite [1, 2, 0, 0] ((st1.store k).off + (st1.store k).len) [3]) else st1.mem x,
         fun j => if j = k then { st1.store k with len := (st1.store k).len + ([3] : Bytes).length }
           else st1.store j⟩
  refine ⟨st1, st2, .cons (.appendGrow st0 k [1, 2] [0, 0] 0 (by decide) rfl) (.nil _),
    .cons (.appendInPlace st1 k [3] [1, 2, 0, 0] (by decide) (fun _ => by decide)) (.nil _),
    by decide, by decide, by decide⟩

end Migp.Props
