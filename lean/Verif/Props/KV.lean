import Verif.Model.KVRun
/-!
# C46: the store is a map of byte strings
-/
namespace Migp.Props
open Migp.Spec

theorem run_append (kv : KV) (a b : List KVOp) :
    (kv.run (a ++ b)).1 = ((kv.run a).1.run b).1 := by
  induction a generalizing kv with
  | nil => rfl
  | cons op a ih => exact ih _

theorem run_noPut (kv : KV) (key : GoString) (ops : List KVOp) (h : NoPut key ops) :
    (kv.run ops).1.store key = kv.store key ++ appendedTo key ops := by
  induction ops generalizing kv with
  | nil => simp [KV.run, appendedTo]
  | cons op ops ih =>
    have h' : NoPut key ops := fun k v hk => h k v (List.mem_cons_of_mem _ hk)
    rw [KV.run, ih _ h']
    cases op with
    | put k v =>
      have : key ≠ k := fun e => h k v (by simp) e.symm
      simp [KV.call, KV.put, appendedTo, this]
    | append k v =>
      by_cases hk : key = k
      · simp [KV.call, KV.append, appendedTo, hk]
      · have hk' : k ≠ key := fun e => hk e.symm
        simp [KV.call, KV.append, appendedTo, hk, hk']
    | get k => simp [KV.call, appendedTo]

/-- C46: after any sequence of calls on a new store, `Get` returns exactly the last value put under
the key followed by everything appended to it since; an unknown key reads as empty. No call fails. -/
theorem C46_map (ops : List KVOp) (key : GoString) (b : Bytes) (h : Holds key ops b) :
    (newKVStore.run ops).1.get key = .ok b := by
  unfold KV.get
  cases h with
  | onlyAppends _ h => rw [run_noPut _ _ _ h]; simp [newKVStore]
  | lastPut before after v h =>
    rw [run_append, KV.run, run_noPut _ _ _ h]
    simp [KV.call, KV.put]

/-- C46: the specification determines a value for every sequence and key. -/
theorem C46_total (ops : List KVOp) (key : GoString) : ∃ b, Holds key ops b := by
  induction ops with
  | nil => exact ⟨_, .onlyAppends [] (by intro k v h; cases h)⟩
  | cons op ops ih =>
    by_cases h : NoPut key ops
    · by_cases h2 : ∃ v, op = .put key v
      · obtain ⟨v, rfl⟩ := h2
        exact ⟨_, .lastPut [] ops v h⟩
      · refine ⟨_, .onlyAppends (op :: ops) ?_⟩
        intro k v hk
        rcases List.mem_cons.mp hk with e | hk
        · rintro rfl; exact h2 ⟨v, e.symm⟩
        · exact h k v hk
    · obtain ⟨b, hb⟩ := ih
      cases hb with
      | onlyAppends _ h' => exact absurd h' h
      | lastPut before after v h' => exact ⟨_, .lastPut (op :: before) after v h'⟩

/-- C46: results of calls in the middle: a `Get` returns what the calls before it have stored, and
every call returns a nil error. -/
theorem C46_results (before after : List KVOp) (op : KVOp) :
    ∃ r, ((newKVStore.run (before ++ op :: after)).2)[before.length]? = some (.ok r) ∧
      ∀ key, op = .get key → Holds key before r := by
  have key : ∀ (kv : KV) (before : List KVOp),
      ((kv.run (before ++ op :: after)).2)[before.length]? = some (((kv.run before).1.call op).2) := by
    intro kv before
    induction before generalizing kv with
    | nil => rfl
    | cons o os ih => exact ih _
  rw [key]
  cases op with
  | put k v => exact ⟨[], rfl, by intro _ h; cases h⟩
  | append k v => exact ⟨[], rfl, by intro _ h; cases h⟩
  | get k =>
    refine ⟨(newKVStore.run before).1.store k, rfl, ?_⟩
    rintro key' h
    injection h with h
    subst h
    obtain ⟨b, hb⟩ := C46_total before k
    have := C46_map before k b hb
    unfold KV.get at this
    injection this with this
    rw [this]
    exact hb

example : Holds (ascii "k") [.append (ascii "k") [1], .put (ascii "k") [2], .append (ascii "j") [9],
    .append (ascii "k") [3]] [2, 3] :=
  .lastPut [.append (ascii "k") [1]] [.append (ascii "j") [9], .append (ascii "k") [3]] [2]
    (by intro k v h; simp at h)

end Migp.Props
