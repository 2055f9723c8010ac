import Verif.Lemmas.LibraryHeap
/-!
# `UnmarshalBinary` on the heap
-/
namespace Migp
open Spec HM
open Mutator (makeBytes_length)

/-- A message of 4 or more bytes, its first four split off. -/
theorem split4 (b : Bytes) (h : 4 ≤ b.length) :
    ∃ v, readUint32 (b.take 4) = .ok (v, []) ∧ readUint32 b = .ok (v, b.drop 4) ∧
      v.toNat = (b.take 4).foldl (fun n x => 256 * n + x.toNat) 0 := by
  match b, h with
  | x :: y :: z :: w :: rest, _ =>
    have := x.toNat_lt; have := y.toNat_lt; have := z.toNat_lt; have := w.toNat_lt
    refine ⟨UInt32.ofNat (x.toNat * 16777216 + y.toNat * 65536 + z.toNat * 256 + w.toNat), rfl, rfl, ?_⟩
    simp only [UInt32.toNat_ofNat', List.take_succ_cons, List.take_zero, List.foldl_cons, List.foldl_nil]
    omega

theorem short4 (b : Bytes) (h : b.length < 4) : readUint32 (b.take 4) = .err (if b = [] then .eof else .unexpectedEOF) ∧
    readUint32 b = .err (if b = [] then .eof else .unexpectedEOF) := by
  match b, h with
  | [], _ => exact ⟨rfl, rfl⟩
  | [_], _ => exact ⟨rfl, rfl⟩
  | [_, _], _ => exact ⟨rfl, rfl⟩
  | [_, _, _], _ => exact ⟨rfl, rfl⟩

theorem drop_shows {M : Memory} {sl : Slice} {b : Bytes} {n : Nat} (s : Shows M sl b) (hn : n ≤ b.length) :
    Shows M ⟨sl.arr, sl.off + n, sl.len - n, sl.cap - n⟩ (b.drop n) := by
  have := reslice_shows s hn (Nat.le_refl _)
  rw [List.take_length, s.len] at this
  exact this

theorem take_shows {M : Memory} {sl : Slice} {b : Bytes} (n : Nat) (s : Shows M sl b) :
    Shows M ⟨sl.arr, sl.off, min n sl.len, sl.cap⟩ (b.take n) := by
  obtain ⟨h1, h2, h3⟩ := s
  refine ⟨by dsimp only; omega, by rw [List.length_take, h2], fun i hi => ?_⟩
  dsimp only at hi ⊢
  rw [h3 i (by omega), List.getElem?_take, if_pos (by omega)]

theorem unmarshal_sim (r : ServerResponseH) {M : Memory} {data : Slice} {b : Bytes} (hd : Shows M data b) :
    Sim M (fun M' x (_ : Unit) => Received M b data r M' x.1 x.2) M (r.unmarshalBinaryH data) (.ok ()) := by
  have k := Kept.refl M
  unfold ServerResponseH.unmarshalBinaryH
  refine Sim.load (take_shows 4 hd) ?_
  by_cases h4 : b.length < 4
  · obtain ⟨he, -⟩ := short4 b h4
    rw [he]
    exact ⟨k, fun _ => ⟨rfl, rfl⟩, fun _ => by omega, fun _ => by omega⟩
  · obtain ⟨v, hv, -, hn⟩ := split4 b (by omega)
    rw [hv]
    dsimp only
    refine Sim.make k fun x fr => ?_
    have hdl : (b.drop 4).length = b.length - 4 := by rw [List.length_drop]
    have hsh := take_shows (newBuf x defaultElementLength).len
      (drop_shows (n := 4) (hd.mono (fr.upd (makeBytes defaultElementLength))) (by omega))
    have hlen : (newBuf x defaultElementLength).len = 33 := rfl
    refine Sim.load hsh ?_
    rw [hlen]
    unfold bufferRead
    have hnew : ∀ c : Bytes, c.length = 33 → NewSlice M (M.upd x c) (newBuf x defaultElementLength) c := fun c hc => by
      have := newSlice_new fr.none c
      rw [hc] at this
      exact this
    have htl : ((b.drop 4).take 33).length = min 33 (b.length - 4) := by rw [List.length_take, hdl]
    by_cases h0 : (b.drop 4).take 33 = []
    · rw [if_pos ⟨h0, by decide⟩]
      have hl : b.length = 4 := by rw [h0] at htl; simp at htl; omega
      have hd0 : b.drop 4 = [] := List.eq_nil_of_length_eq_zero (by omega)
      refine ⟨fr.upd _, fun _ => by omega, fun _ _ => ⟨by rw [if_pos hl], hn, ?_, rfl⟩, fun _ => by omega⟩
      dsimp only
      rw [hd0, hl]
      exact hnew (makeBytes 33) (makeBytes_length _)
    · rw [if_neg fun hc => h0 hc.1]
      dsimp only
      have hcopy : Shows (M.upd x (makeBytes defaultElementLength)) (newBuf x 33) (makeBytes 33) :=
        (hnew (makeBytes 33) (makeBytes_length _)).shows
      rw [List.take_take, Nat.min_self, htl]
      -- the element is overwritten with what there is
      have hw : ∀ {γ δ : Type} {R : Memory → γ → δ → Prop} {f : Unit → HM γ} {r : Res δ},
          Sim M R (M.upd x (overwrite (makeBytes 33) 0 ((b.drop 4).take 33))) (f ()) r →
          Sim M R (M.upd x (makeBytes defaultElementLength))
            (copyBytes (newBuf x defaultElementLength) ((b.drop 4).take 33) >>= f) r := by
        intro γ δ R f r t
        unfold copyBytes
        have e : ((b.drop 4).take 33).take (newBuf x defaultElementLength).len = (b.drop 4).take 33 := by
          rw [hlen, List.take_take, Nat.min_self]
        rw [e]
        refine Safe.writeFrom fr.old _ _ _ ?_ t
        rw [htl, makeBytes_length]
        show 0 + min 33 (b.length - 4) ≤ 33
        omega
      refine hw ?_
      by_cases h37 : b.length < 37
      · have e : overwrite (makeBytes 33) 0 ((b.drop 4).take 33) =
            b.drop 4 ++ List.replicate (37 - b.length) 0 := by
          unfold overwrite makeBytes
          rw [List.take_of_length_le (l := b.drop 4) (by omega), hdl, List.drop_replicate]
          simp only [List.take_zero, List.nil_append]
          congr 2
          omega
        have hne : min 33 (min 33 (b.length - 4)) ≠ 33 := by omega
        rw [if_pos hne, e]
        refine ⟨fr.upd _, fun _ => by omega, fun _ _ => ⟨by rw [if_neg (fun h4' => h0 (List.eq_nil_of_length_eq_zero (by omega)))], hn, ?_, rfl⟩, fun _ => by omega⟩
        exact hnew _ (by rw [List.length_append, List.length_replicate, hdl]; omega)
      · have hm : min 33 (min 33 (b.length - 4)) = 33 := by omega
        rw [hm, if_neg (by simp)]
        have e : overwrite (makeBytes 33) 0 ((b.drop 4).take 33) = (b.drop 4).take 33 := by
          unfold overwrite makeBytes
          rw [htl, show min 33 (b.length - 4) = 33 by omega, List.drop_replicate]
          simp
        rw [e]
        refine ⟨fr.upd _, fun _ => by omega, fun _ _ => by omega, fun _ => ⟨rfl, hn, ?_, ?_, ?_⟩⟩
        · exact hnew _ (by rw [htl]; omega)
        · dsimp only
          rw [Slice.mk.injEq]; omega
        · dsimp only
          have := drop_shows (n := 37) (hd.mono (fr.upd ((b.drop 4).take 33))) (by omega)
          have e2 : (⟨data.arr, data.off + 4 + 33, data.len - 4 - 33, data.cap - 4 - 33⟩ : Slice) =
              ⟨data.arr, data.off + 37, data.len - 37, data.cap - 37⟩ := by
            rw [Slice.mk.injEq]; omega
          rw [e2]; exact this

end Migp
