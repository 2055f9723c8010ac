import Verif.Lemmas.Heap
import Verif.Model.MutatorHeap
import Mathlib.Data.List.Forall2
/-!
# The mutator's code on the heap does what its model on values says
-/
namespace Migp.Mutator
open Spec HM

theorem makeBytes_length (n : Nat) : (makeBytes n).length = n := by
  unfold makeBytes; exact List.length_replicate

/-- `newBuf := make([]byte, len(src)); copy(newBuf, src)` and the rest. -/
theorem sim_copy {γ δ : Type} {M0 M : Memory} {R' : Memory → γ → δ → Prop} {n : Nat} {src : Slice} {b : Bytes}
    {f : Slice → HM γ} {g : Bytes → Res δ} (k : Kept M0 M) (s : Shows M src b)
    (t : ∀ a b', Fresh M0 M a → b'.length = n → Sim M0 R' (M.upd a b') (f (newBuf a n)) (g b')) :
    Sim M0 R' M (make n >>= fun nb => copySlice nb src >>= fun _ => f nb)
      (copyAt (makeBytes n) 0 b >>= g) :=
  Sim.make k fun a fr => Sim.copySlice0 (makeBytes_length n) fr (s.mono (Kept.upd fr.none _)) fun b' _ hl => t a b' fr hl

theorem changeCap_sim {M : Memory} {sl : Slice} {b : Bytes} (s : Shows M sl b) (position : Int) :
    Sim M (NewSlice M) M (changeCapH sl position) (changeCap b position) := by
  have k := Kept.refl M
  unfold changeCapH changeCap
  rw [← s.len]
  refine sim_copy k s fun x b' fr hl => ?_
  dsimp only
  generalize (if position < 0 then (b.length : Int) + position else position) = pos
  by_cases hp : pos ≥ 0 ∧ pos < b.length
  · rw [if_pos hp, if_pos hp]
    refine Sim.getIdx (fr.upd _) (s.mono (fr.upd _)) fun a _ => ?_
    cases switchCase a with
    | ok c =>
      dsimp only
      rw [Res.bind_ok (setIndex b' pos.toNat c)]
      refine Sim.setIdx hl fr fun b'' _ hl' => ?_
      exact Sim.ret_new hl' fr
    | err e => exact Sim.ret_new hl fr
    | panic p => exact Sim.panic (fr.upd _)
  · rw [if_neg hp, if_neg hp]
    exact Sim.ret_new hl fr

theorem copy_sim {M : Memory} {src : Slice} {b : Bytes} (s : Shows M src b) (n : Nat) :
    Sim M (NewSlice M) M (make n >>= fun nb => copySlice nb src >>= fun _ => pure nb) (copyAt (makeBytes n) 0 b) := by
  have := sim_copy (n := n) (f := fun nb => pure nb) (g := fun b => Res.ok b) (R' := NewSlice M)
    (Kept.refl M) s fun x b' fr hl => Sim.ret_new hl fr
  rw [← Res.bind_ok] at this
  exact this

theorem deletePortion_sim {M : Memory} {sl : Slice} {b : Bytes} (s : Shows M sl b) (position : Int) :
    Sim M (NewSlice M) M (deletePortionH sl position) (deletePortion b position) := by
  have k := Kept.refl M
  unfold deletePortionH deletePortion
  rw [← s.len]
  by_cases h1 : position ≥ 0 ∧ position ≤ b.length
  · rw [if_pos h1, if_pos h1]
    refine Sim.make k fun a fr => ?_
    refine Sim.resliceFrom (fr.upd _) (s.mono (fr.upd _)) fun sl' _ _ _ s' => ?_
    rw [Res.bind_ok (copyAt _ _ _)]
    exact Sim.copySlice0 (makeBytes_length _) fr s' fun b' _ hl => Sim.ret_new hl fr
  · rw [if_neg h1, if_neg h1]
    by_cases h2 : position < 0 ∧ (b.length : Int) + position ≥ 0
    · rw [if_pos h2, if_pos h2]
      refine Sim.make k fun a fr => ?_
      refine Sim.reslice (fr.upd _) (s.mono (fr.upd _)) (by omega) fun sl' _ _ _ s' => ?_
      rw [Res.bind_ok (copyAt _ _ _)]
      exact Sim.copySlice0 (makeBytes_length _) fr s' fun b' _ hl => Sim.ret_new hl fr
    · rw [if_neg h2, if_neg h2]
      exact copy_sim s _

theorem insert_sim {M : Memory} {sl : Slice} {b : Bytes} (s : Shows M sl b) (position : Int)
    (string1 : GoString) : Sim M (NewSlice M) M (insertH sl position string1) (insert b position string1) := by
  have k := Kept.refl M
  unfold insertH insert
  rw [← s.len]
  by_cases h1 : b.length = 0 ∧ (position = 0 ∨ position = -1)
  · rw [if_pos h1, if_pos h1]
    refine Sim.make k fun a fr => ?_
    rw [Res.bind_ok (copyAt _ _ _)]
    exact Sim.copyBytes0 (makeBytes_length _) fr fun b' _ hl => Sim.ret_new hl fr
  · rw [if_neg h1, if_neg h1]
    dsimp only
    generalize (if position < 0 then position + (b.length : Int) + 1 else position) = pos
    by_cases h2 : pos ≥ 0 ∧ pos ≤ b.length
    · rw [if_pos h2, if_pos h2]
      refine Sim.make k fun a fr => ?_
      refine Sim.reslice (fr.upd _) (s.mono (fr.upd _)) (by omega) fun pre _ ha _ s' => ?_
      refine Sim.copySlice0 (makeBytes_length _) fr s' fun b1 _ hl1 => ?_
      refine Sim.copyBytesAt hl1 fr fun b2 _ hl2 => ?_
      have s2 : Shows (M.upd a b2) sl b := s.mono (fr.upd _)
      -- Go takes the destination's slice before the source's
      refine Sim.tail (fr.upd _) (fun ho => ?_) fun ho => absurd (by omega) ho
      refine Sim.resliceFrom (fr.upd _) s2 fun post _ _ _ s3 => ?_
      rw [Res.bind_ok (copyAt _ _ _)]
      exact Sim.copySlice s3 (Sim.copyBytes hl2 fr ho fun b3 _ hl3 => Sim.ret_new hl3 fr)
    · rw [if_neg h2, if_neg h2]
      exact copy_sim s _

theorem substitute_sim {M : Memory} {sl : Slice} {b : Bytes} (s : Shows M sl b) (position : Int)
    (string1 string2 : GoString) :
    Sim M (NewSlice M) M (substituteH sl position string1 string2) (.ok (substitute b position string1 string2)) :=
  Sim.load (f := fun s => new (replaceAll s string1 string2)) s (Sim.new_ret (Kept.refl M))

theorem applyRule_sim {M : Memory} {sl : Slice} {b : Bytes} (s : Shows M sl b) (rule : RDasRule) :
    Sim M (NewSlice M) M (applyRuleH rule sl) (applyRule rule b) := by
  unfold applyRuleH applyRule
  split
  · exact changeCap_sim s _
  · split
    · exact deletePortion_sim s _
    · split
      · exact insert_sim s _ _
      · split
        · exact substitute_sim s _ _ _
        · exact ⟨Kept.refl M, rfl⟩

theorem mutateLoop_sim {M0 : Memory} {sl : Slice} {b : Bytes} (s : Shows M0 sl b) (num : Int) :
    ∀ (rules : List RDasRule) (j : Int) (seen : List UInt32) (sls : List Slice) (vs : List Bytes) (M : Memory),
      Kept M0 M → Variants M0 M sls vs →
      Sim M0 (Variants M0) M (mutateLoopH sl num rules j seen sls) (mutateLoop b num rules j seen vs)
  | [], _, _, _, _, _, k, v => Sim.pure k v
  | rule :: rules, j, seen, sls, vs, M, k, v => by
    unfold mutateLoopH mutateLoop
    by_cases hj : j < num
    · rw [if_pos hj, if_pos hj]
      refine Sim.bind k (applyRule_sim (s.mono k) rule) fun M' a v' k' n => ?_
      refine Sim.load n.shows ?_
      dsimp only
      have vf : List.Forall₂ (NewSlice M0 M') sls vs := v.1.imp fun x y hxy => hxy.mono k'
      split
      · exact mutateLoop_sim s num rules _ _ _ _ _ (k.trans k') ⟨vf, v.2⟩
      · refine mutateLoop_sim s num rules _ _ _ _ _ (k.trans k') ⟨?_, ?_⟩
        · exact List.rel_append vf (List.Forall₂.cons (n.weaken k) .nil)
        · rw [List.map_append, List.map_singleton, List.nodup_append]
          refine ⟨v.2, List.nodup_singleton _, fun x hx y hy => ?_⟩
          obtain ⟨z, hz, rfl⟩ := List.mem_map.mp hx
          rw [List.mem_singleton] at hy
          subst hy
          -- the old variant's array is in `M`, the new one's is not
          obtain ⟨i, hi, rfl⟩ := List.getElem_of_mem hz
          have hm := (List.forall₂_iff_get.mp v.1).2 i hi (by rw [← v.1.length_eq]; exact hi)
          intro e
          have h1 := hm.1.2
          rw [List.get_eq_getElem, e] at h1
          exact h1 n.1.1
    · rw [if_neg hj, if_neg hj]
      exact Sim.pure k v

theorem mutate_sim {M : Memory} {sl : Slice} {b : Bytes} (s : Shows M sl b) (rules : List RDasRule) (num : Int) :
    Sim M (Variants M) M (mutateH rules sl num) (mutate rules b num) := by
  unfold mutateH mutate
  split
  · exact ⟨Kept.refl M, rfl⟩
  · split
    · exact ⟨Kept.refl M, rfl⟩
    · exact Sim.load (f := fun b => mutateLoopH sl num rules 0 [Murmur3.sum32 b] []) s
        (mutateLoop_sim s num rules _ _ _ _ M (Kept.refl M) ⟨.nil, List.nodup_nil⟩)

end Migp.Mutator
