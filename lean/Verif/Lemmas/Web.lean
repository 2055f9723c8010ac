import Verif.Model.Web
import Mathlib.Data.List.TakeWhile
/-!
# Clean paths and redirects
-/
namespace Migp
open Http

namespace Http

/-- An element that a cleaned path may have. -/
def ProperElem (x : Bytes) : Prop := x ≠ [] ∧ x ≠ ascii "." ∧ x ≠ ascii ".." ∧ ∀ c ∈ x, c.toNat ≠ 47

theorem splitSlash_ne_nil (p : Bytes) : splitSlash p ≠ [] := by
  cases p with
  | nil => simp [splitSlash]
  | cons c cs => unfold splitSlash; split; · simp
                 · split <;> simp

theorem splitSlash_no_slash (p : Bytes) : ∀ x ∈ splitSlash p, ∀ c ∈ x, c.toNat ≠ 47 := by
  induction p with
  | nil => intro x hx; simp [splitSlash] at hx; subst hx; simp
  | cons c cs ih =>
    intro x hx
    unfold splitSlash at hx
    split at hx
    · rcases List.mem_cons.mp hx with rfl | hx
      · simp
      · exact ih x hx
    · rename_i hc
      split at hx
      · rename_i h; exact absurd h (splitSlash_ne_nil cs)
      · rename_i y ys h
        rcases List.mem_cons.mp hx with rfl | hx
        · intro d hd
          rcases List.mem_cons.mp hd with rfl | hd
          · exact hc
          · exact ih y (by rw [h]; simp) d hd
        · exact ih x (by rw [h]; simp [hx])

theorem cleanElems_proper (l : List Bytes) (hl : ∀ x ∈ l, ∀ c ∈ x, c.toNat ≠ 47) (acc : List Bytes)
    (ha : ∀ x ∈ acc, ProperElem x) : ∀ x ∈ cleanElems l acc, ProperElem x := by
  induction l generalizing acc with
  | nil => exact ha
  | cons y ys ih =>
    have hys : ∀ x ∈ ys, ∀ c ∈ x, c.toNat ≠ 47 := fun x hx => hl x (List.mem_cons_of_mem _ hx)
    unfold cleanElems
    split
    · exact ih hys acc ha
    · rename_i h1
      split
      · exact ih hys _ fun x hx => ha x (List.mem_of_mem_tail hx)
      · rename_i h2
        refine ih hys _ fun x hx => ?_
        rcases List.mem_cons.mp hx with rfl | hx
        · exact ⟨fun h => h1 (.inl h), fun h => h1 (.inr h), h2, hl _ (List.mem_cons_self ..)⟩
        · exact ha x hx

theorem cleanElems_of_proper (l : List Bytes) (hl : ∀ x ∈ l, ProperElem x) (acc : List Bytes) :
    cleanElems l acc = l.reverse ++ acc := by
  induction l generalizing acc with
  | nil => rfl
  | cons y ys ih =>
    obtain ⟨h1, h2, h3, -⟩ := hl y (List.mem_cons_self ..)
    unfold cleanElems
    rw [if_neg (by simp [h1, h2]), if_neg h3, ih (fun x hx => hl x (List.mem_cons_of_mem _ hx))]
    simp

theorem cleanElems_append (l m acc : List Bytes) : cleanElems (l ++ m) acc = cleanElems m (cleanElems l acc) := by
  induction l generalizing acc with
  | nil => rfl
  | cons y ys ih =>
    have e : ∀ zs acc, cleanElems (y :: zs) acc = if y = [] ∨ y = ascii "." then cleanElems zs acc
        else if y = ascii ".." then cleanElems zs acc.tail else cleanElems zs (y :: acc) := fun _ _ => rfl
    rw [List.cons_append, e, e]
    split
    · exact ih _
    · split <;> exact ih _

theorem splitSlash_append (x rest : Bytes) (hx : ∀ c ∈ x, c.toNat ≠ 47) :
    splitSlash (x ++ 47 :: rest) = x :: splitSlash rest := by
  induction x with
  | nil => simp [splitSlash]
  | cons c cs ih =>
    rw [List.cons_append, splitSlash, if_neg (hx c (List.mem_cons_self ..)),
      ih fun d hd => hx d (List.mem_cons_of_mem _ hd)]

theorem splitSlash_elem (x : Bytes) (hx : ∀ c ∈ x, c.toNat ≠ 47) : splitSlash x = [x] := by
  induction x with
  | nil => rfl
  | cons c cs ih =>
    rw [splitSlash, if_neg (hx c (List.mem_cons_self ..)), ih fun d hd => hx d (List.mem_cons_of_mem _ hd)]

/-- The path made of these elements. -/
def joinElems (xs : List Bytes) : Bytes := xs.flatMap fun x => 47 :: x

theorem splitSlash_join (xs : List Bytes) (hx : ∀ x ∈ xs, ∀ c ∈ x, c.toNat ≠ 47) (hne : xs ≠ []) :
    splitSlash (joinElems xs) = [] :: xs := by
  have key : ∀ ys : List Bytes, (∀ x ∈ ys, ∀ c ∈ x, c.toNat ≠ 47) → ∀ x : Bytes, (∀ c ∈ x, c.toNat ≠ 47) →
      splitSlash (x ++ joinElems ys) = x :: ys := by
    intro ys
    induction ys with
    | nil => intro _ x h; rw [joinElems, List.flatMap_nil, List.append_nil, splitSlash_elem x h]
    | cons y ys ih =>
      intro h x hx
      have : joinElems (y :: ys) = 47 :: (y ++ joinElems ys) := by simp [joinElems]
      rw [this, splitSlash_append x _ hx, ih (fun z hz => h z (List.mem_cons_of_mem _ hz)) y (h y (List.mem_cons_self ..))]
  exact key xs hx [] (by simp)

theorem splitSlash_join_slash (xs : List Bytes) (hx : ∀ x ∈ xs, ∀ c ∈ x, c.toNat ≠ 47) :
    splitSlash (joinElems xs ++ [47]) = [] :: (xs ++ [[]]) := by
  have : joinElems xs ++ [47] = joinElems (xs ++ [[]]) := by simp [joinElems]
  rw [this, splitSlash_join _ _ (by simp)]
  intro x h
  rcases List.mem_append.mp h with h | h
  · exact hx x h
  · rw [List.mem_singleton.mp h]; simp

theorem pathClean_eq (p : Bytes) : ∃ xs : List Bytes, (∀ x ∈ xs, ProperElem x) ∧
    pathClean p = if xs = [] then [47] else joinElems xs := by
  refine ⟨(cleanElems (splitSlash p) []).reverse, ?_, ?_⟩
  · intro x hx
    exact cleanElems_proper _ (splitSlash_no_slash p) [] (by simp) x (List.mem_reverse.mp hx)
  · unfold pathClean
    cases h : (cleanElems (splitSlash p) []).reverse with
    | nil => rfl
    | cons y ys => rfl

theorem pathClean_join (xs : List Bytes) (hx : ∀ x ∈ xs, ProperElem x) (hne : xs ≠ []) :
    pathClean (joinElems xs) = joinElems xs := by
  unfold pathClean
  rw [splitSlash_join xs (fun x h => (hx x h).2.2.2) hne]
  have : cleanElems ([] :: xs) [] = xs.reverse := by
    rw [show cleanElems ([] :: xs) [] = cleanElems xs [] from by rw [cleanElems, if_pos (.inl rfl)],
      cleanElems_of_proper xs hx, List.append_nil]
  rw [this, List.reverse_reverse]
  cases xs with
  | nil => exact absurd rfl hne
  | cons y ys => rfl

theorem pathClean_join_slash (xs : List Bytes) (hx : ∀ x ∈ xs, ProperElem x) (hne : xs ≠ []) :
    pathClean (joinElems xs ++ [47]) = joinElems xs := by
  unfold pathClean
  rw [splitSlash_join_slash xs fun x h => (hx x h).2.2.2]
  have : cleanElems ([] :: (xs ++ [[]])) [] = xs.reverse := by
    rw [show cleanElems ([] :: (xs ++ [[]])) [] = cleanElems (xs ++ [[]]) [] from by rw [cleanElems, if_pos (.inl rfl)],
      cleanElems_append, cleanElems_of_proper xs hx, List.append_nil, cleanElems, if_pos (.inl rfl), cleanElems]
  rw [this, List.reverse_reverse]
  cases xs with
  | nil => exact absurd rfl hne
  | cons y ys => rfl

theorem joinElems_last (xs : List Bytes) (hx : ∀ x ∈ xs, ProperElem x) (hne : xs ≠ []) :
    (joinElems xs).getLast? ≠ some 47 := by
  obtain ⟨init, y, rfl⟩ : ∃ init y, xs = init ++ [y] := ⟨_, _, (List.dropLast_append_getLast hne).symm⟩
  obtain ⟨h1, -, -, h4⟩ := hx y (by simp)
  obtain ⟨i2, c, rfl⟩ : ∃ i2 c, y = i2 ++ [c] := ⟨_, _, (List.dropLast_append_getLast h1).symm⟩
  have : joinElems (init ++ [i2 ++ [c]]) = (joinElems init ++ 47 :: i2) ++ [c] := by simp [joinElems]
  rw [this, List.getLast?_append]
  intro h
  have hc : c = 47 := by simpa using h
  exact h4 c (by simp) (by rw [hc]; rfl)

theorem joinElems_head (xs : List Bytes) (hne : xs ≠ []) : ∃ r, joinElems xs = 47 :: r := by
  cases xs with
  | nil => exact absurd rfl hne
  | cons y ys => exact ⟨_, by simp [joinElems]; rfl⟩

theorem joinElems_ne_slash (xs : List Bytes) (hx : ∀ x ∈ xs, ProperElem x) (hne : xs ≠ []) : joinElems xs ≠ [47] := by
  intro h
  exact joinElems_last xs hx hne (by rw [h]; rfl)

/-- The path with a slash in front. -/
def rooted (p : Bytes) : Bytes :=
  match p with
  | [] => [47]
  | c :: cs => if c.toNat = 47 then c :: cs else 47 :: c :: cs

theorem cleanPath_rooted (p : GoString) : cleanPath p =
    if (rooted p).getLast? = some 47 ∧ pathClean (rooted p) ≠ [47] then pathClean (rooted p) ++ [47]
    else pathClean (rooted p) := by
  cases p <;> rfl

theorem rooted_slash (r : Bytes) : rooted (47 :: r) = 47 :: r := rfl

/-- Cleaning a clean path changes nothing: a redirect leads to a path that is not redirected. -/
theorem cleanPath_idem (p : GoString) : cleanPath (cleanPath p) = cleanPath p := by
  have hroot : cleanPath [47] = [47] := by decide
  rw [cleanPath_rooted p]
  generalize rooted p = q
  obtain ⟨xs, hx, e⟩ := pathClean_eq q
  rw [e]
  by_cases hne : xs = []
  · rw [if_pos hne, if_neg (by simp)]
    exact hroot
  · rw [if_neg hne]
    obtain ⟨r, hr⟩ := joinElems_head xs hne
    by_cases hl : q.getLast? = some 47
    · rw [if_pos ⟨hl, joinElems_ne_slash xs hx hne⟩, cleanPath_rooted]
      have e1 : rooted (joinElems xs ++ [47]) = joinElems xs ++ [47] := by rw [hr]; rfl
      rw [e1, pathClean_join_slash xs hx hne, if_pos ⟨by simp, joinElems_ne_slash xs hx hne⟩]
    · rw [if_neg (fun h => hl h.1), cleanPath_rooted]
      have e1 : rooted (joinElems xs) = joinElems xs := by rw [hr]; rfl
      rw [e1, pathClean_join xs hx hne, if_neg (fun h => joinElems_last xs hx hne h.1)]

end Http

end Migp
