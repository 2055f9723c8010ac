import Verif.Spec.Memory
import Mathlib.Tactic.Common
/-!
# Reasoning about code on the heap

`Safe base m M P`: whatever numbers the allocator gives to new arrays, code `m`, when the memory it knows of is
`M`, reads only bytes of `M` and of arrays it has made, writes only to arrays that are not in `base`, and ends with
an outcome and known memory that satisfy `P`.
-/
namespace Migp
open Spec HM

/-- Memory with another array, or another content of an array. -/
def Memory.upd (M : Memory) (a : Nat) (b : Bytes) : Memory := fun x => if x = a then some b else M x

theorem Memory.upd_self (M : Memory) (a : Nat) (b : Bytes) : M.upd a b a = some b := if_pos rfl

theorem Memory.upd_ne (M : Memory) {a x : Nat} (b : Bytes) (h : x ≠ a) : M.upd a b x = M x := if_neg h

theorem Memory.upd_upd (M : Memory) (a : Nat) (b c : Bytes) : (M.upd a b).upd a c = M.upd a c := by
  funext x; unfold Memory.upd; split <;> rfl

theorem _root_.Migp.Spec.Kept.refl (M : Memory) : Kept M M := fun _ _ h => h

theorem _root_.Migp.Spec.Kept.trans {M1 M2 M3 : Memory} (k : Kept M1 M2) (k' : Kept M2 M3) : Kept M1 M3 :=
  fun a b h => k' a b (k a b h)

theorem _root_.Migp.Spec.Kept.none {M M' : Memory} (k : Kept M M') {a : Nat} (h : M' a = none) : M a = none := by
  cases hm : M a with
  | none => rfl
  | some b => rw [k a b hm] at h; cases h

theorem _root_.Migp.Spec.Kept.upd {M : Memory} {a : Nat} (h : M a = none) (b : Bytes) : Kept M (M.upd a b) :=
  fun x c hx => by
    have : x ≠ a := by rintro rfl; rw [h] at hx; cases hx
    rw [Memory.upd_ne _ _ this, hx]

theorem _root_.Migp.Spec.Kept.byte {M M' : Memory} (k : Kept M M') {a i : Nat} {v : UInt8} (h : M.byte a i = some v) :
    M'.byte a i = some v := by
  unfold Memory.byte at *
  cases hm : M a with
  | none => rw [hm] at h; cases h
  | some b => rw [hm] at h; rw [k a b hm]; exact h

theorem _root_.Migp.Spec.Shows.len {M : Memory} {sl : Slice} {b : Bytes} (s : Shows M sl b) : b.length = sl.len := s.2.1

theorem _root_.Migp.Spec.Shows.mono {M M' : Memory} {sl : Slice} {b : Bytes} (s : Shows M sl b) (k : Kept M M') :
    Shows M' sl b := by
  refine ⟨s.1, s.2.1, fun i hi => ?_⟩
  have hb : i < b.length := by rw [s.2.1]; exact hi
  have e := s.2.2 i hi
  rw [List.getElem?_eq_getElem hb] at e ⊢
  exact k.byte e

theorem _root_.Migp.Spec.Within.mono {M M' : Memory} {sl : Slice} (s : Within M sl) (k : Kept M M') : Within M' sl := by
  obtain ⟨h1, h2 | ⟨a, ha, hc⟩⟩ := s
  · exact ⟨h1, Or.inl h2⟩
  · exact ⟨h1, Or.inr ⟨a, k _ _ ha, hc⟩⟩

theorem _root_.Migp.Spec.MadeSince.mono {M0 M M' : Memory} {sl : Slice} (s : MadeSince M0 M sl) (k : Kept M M') :
    MadeSince M0 M' sl := ⟨s.1, fun h => s.2 (k.none h)⟩

theorem _root_.Migp.Spec.NewSlice.mono {M0 M M' : Memory} {sl : Slice} {b : Bytes} (s : NewSlice M0 M sl b)
    (k : Kept M M') : NewSlice M0 M' sl b := ⟨s.1.mono k, s.2.1.mono k, s.2.2.mono k⟩

theorem _root_.Migp.Spec.NewSlice.weaken {M0 M1 M : Memory} {sl : Slice} {b : Bytes} (s : NewSlice M1 M sl b)
    (k : Kept M0 M1) : NewSlice M0 M sl b := ⟨⟨k.none s.1.1, s.1.2⟩, s.2⟩

theorem _root_.Migp.Spec.NewSlice.shows {M1 M : Memory} {sl : Slice} {b : Bytes} (s : NewSlice M1 M sl b) :
    Shows M sl b := s.2.2

/-- The slice of a whole array. -/
def newBuf (a n : Nat) : Slice := ⟨a, 0, n, n⟩

theorem shows_new (M : Memory) (a : Nat) (b : Bytes) : Shows (M.upd a b) (newBuf a b.length) b := by
  refine ⟨le_refl _, rfl, fun i _ => ?_⟩
  unfold Memory.byte newBuf
  rw [Memory.upd_self, Nat.zero_add]; rfl

theorem newSlice_new {M : Memory} {a : Nat} (h : M a = none) (b : Bytes) :
    NewSlice M (M.upd a b) (newBuf a b.length) b := by
  refine ⟨⟨h, ?_⟩, ⟨le_refl _, Or.inr ⟨b, Memory.upd_self .., by simp [newBuf]⟩⟩, shows_new M a b⟩
  show M.upd a b a ≠ none
  rw [Memory.upd_self]; simp

/-! ### Safe code -/

/-- See above. -/
def Safe {α : Type} (base : Memory) : HM α → Memory → (Memory → Res α → Prop) → Prop
  | .done r, M, P => P M r
  | .alloc b k, M, P => ∀ a, M a = none → Safe base (k a) (M.upd a b) P
  | .read a i k, M, P => ∃ v, M.byte a i = some v ∧ Safe base (k v) M P
  | .write a i v k, M, P => ∃ x, M a = some x ∧ i < x.length ∧ base a = none ∧ Safe base k (M.upd a (x.set i v)) P

section
variable {α β : Type}

theorem Safe.post {base : Memory} {P Q : Memory → Res α → Prop} (h : ∀ M r, P M r → Q M r) :
    ∀ {m : HM α} {M : Memory}, Safe base m M P → Safe base m M Q
  | .done r, M, s => h M r s
  | .alloc b k, M, s => fun a ha => Safe.post h (s a ha)
  | .read a i k, M, ⟨v, hv, s⟩ => ⟨v, hv, Safe.post h s⟩
  | .write a i v k, M, ⟨x, hx, hi, hb, s⟩ => ⟨x, hx, hi, hb, Safe.post h s⟩

theorem Safe.base {base base' : Memory} (k : Kept base base') {P : Memory → Res α → Prop} :
    ∀ {m : HM α} {M : Memory}, Safe base' m M P → Safe base m M P
  | .done r, M, s => s
  | .alloc _ _, _, s => fun a ha => Safe.base k (s a ha)
  | .read _ _ _, _, ⟨v, hv, s⟩ => ⟨v, hv, Safe.base k s⟩
  | .write _ _ _ _, _, ⟨x, hx, hi, hb, s⟩ => ⟨x, hx, hi, k.none hb, Safe.base k s⟩

/-- What has to hold after the first of two pieces of code. -/
def BindPost (base : Memory) (f : α → HM β) (P : Memory → Res β → Prop) (M : Memory) : Res α → Prop
  | .ok a => Safe base (f a) M P
  | .err e => P M (.err e)
  | .panic p => P M (.panic p)

theorem Safe.bind_iff {base : Memory} {f : α → HM β} {P : Memory → Res β → Prop} :
    ∀ {m : HM α} {M : Memory}, Safe base (m >>= f) M P ↔ Safe base m M (BindPost base f P)
  | .done (.ok a), M => Iff.rfl
  | .done (.err e), M => Iff.rfl
  | .done (.panic p), M => Iff.rfl
  | .alloc b k, M => forall_congr' fun a => forall_congr' fun _ => Safe.bind_iff (m := k a)
  | .read a i k, M => exists_congr fun v => and_congr_right fun _ => Safe.bind_iff (m := k v)
  | .write a i v k, M => exists_congr fun x => and_congr_right fun _ => and_congr_right fun _ =>
      and_congr_right fun _ => Safe.bind_iff (m := k)

/-- What has to hold after code whose error is looked at. -/
def AttemptPost (P : Memory → Res (Except Err α) → Prop) (M : Memory) : Res α → Prop
  | .ok a => P M (.ok (.ok a))
  | .err e => P M (.ok (.error e))
  | .panic p => P M (.panic p)

theorem Safe.attempt_iff {base : Memory} {P : Memory → Res (Except Err α) → Prop} :
    ∀ {m : HM α} {M : Memory}, Safe base (attempt m) M P ↔ Safe base m M (AttemptPost P)
  | .done (.ok a), M => Iff.rfl
  | .done (.err e), M => Iff.rfl
  | .done (.panic p), M => Iff.rfl
  | .alloc b k, M => forall_congr' fun a => forall_congr' fun _ => Safe.attempt_iff (m := k a)
  | .read a i k, M => exists_congr fun v => and_congr_right fun _ => Safe.attempt_iff (m := k v)
  | .write a i v k, M => exists_congr fun x => and_congr_right fun _ => and_congr_right fun _ =>
      and_congr_right fun _ => Safe.attempt_iff (m := k)

theorem Safe.readFrom {base : Memory} {M : Memory} {arr : Nat} : ∀ {γ : Type} {f : Bytes → HM γ}
    {P : Memory → Res γ → Prop} (i : Nat) (l : Bytes), (∀ j < l.length, M.byte arr (i + j) = l[j]?) → Safe base (f l) M P →
      Safe base (HM.readFrom arr i l.length >>= f) M P
  | _, _, _, i, [], _, s => s
  | _, f, P, i, b :: l, h, s => by
    refine ⟨b, h 0 (Nat.zero_lt_succ _), ?_⟩
    have h' : ∀ j < l.length, M.byte arr (i + 1 + j) = l[j]? := fun j hj => by
      have := h (j + 1) (Nat.succ_lt_succ hj)
      rw [List.getElem?_cons_succ] at this
      rw [← this, Nat.add_assoc, Nat.add_comm 1]
    refine Safe.bind_iff.mpr ?_
    exact Safe.readFrom (f := fun bs => Pure.pure (b :: bs)) (P := BindPost base f P) (i + 1) l h' s

theorem Safe.load {base M : Memory} {sl : Slice} {b : Bytes} {f : Bytes → HM β} {P : Memory → Res β → Prop}
    (s : Shows M sl b) (t : Safe base (f b) M P) : Safe base (HM.load sl >>= f) M P := by
  unfold HM.load
  rw [← s.len]
  exact Safe.readFrom sl.off b (fun j hj => s.2.2 j (by rw [← s.len]; exact hj)) t

theorem overwrite_cons (b : Bytes) (i : Nat) (v : UInt8) (vs : Bytes) (h : i + (vs.length + 1) ≤ b.length) :
    overwrite (b.set i v) (i + 1) vs = overwrite b i (v :: vs) := by
  unfold overwrite
  rw [List.length_cons, List.drop_set_of_lt (by omega), List.take_succ_eq_append_getElem (by simp; omega),
    List.getElem_set_self, List.take_set_of_le (by omega)]
  simp [Nat.add_assoc, Nat.add_comm 1]

theorem Safe.writeFrom {base : Memory} {f : Unit → HM β} {P : Memory → Res β → Prop} {M : Memory} {a : Nat}
    (hb : base a = none) :
    ∀ (v : Bytes) (i : Nat) (b : Bytes), i + v.length ≤ b.length →
      Safe base (f ()) (M.upd a (overwrite b i v)) P → Safe base (HM.writeFrom a i v >>= f) (M.upd a b) P
  | [], i, b, h, s => by
    have e : overwrite b i [] = b := by unfold overwrite; simp
    rw [e] at s
    exact s
  | v :: vs, i, b, h, s => by
    rw [List.length_cons] at h
    refine ⟨b, Memory.upd_self .., by omega, hb, ?_⟩
    rw [Memory.upd_upd]
    rw [← overwrite_cons b i v vs h] at s
    exact Safe.writeFrom hb vs (i + 1) _ (by simp; omega) s

end

/-- Running `m`, which knows memory `M`, keeps what was in the older memory `base`, has the outcome `r` and
reads and writes only what it may. -/
def Sim {α β : Type} (base : Memory) (R : Memory → α → β → Prop) (M : Memory) (m : HM α) (r : Res β) : Prop :=
  Safe base m M fun M' x => Kept base M' ∧ Agree x r (R M')

theorem Res.bind_ok {α : Type} (r : Res α) : r = (r >>= fun a => .ok a) := by cases r <;> rfl

section
variable {α β γ δ : Type} {M0 M M1 : Memory} {R : Memory → α → β → Prop} {R' : Memory → γ → δ → Prop}

theorem Sim.pure {a : α} {b : β} (k : Kept M0 M) (r : R M a b) : Sim M0 R M (Pure.pure a) (.ok b) := ⟨k, r⟩

theorem Sim.err {e : Err} (k : Kept M0 M) : Sim M0 R M (HM.err e : HM α) (.err e) := ⟨k, rfl⟩

theorem Sim.panic {p : Panic} (k : Kept M0 M) : Sim M0 R M (HM.panic p : HM α) (.panic p) := ⟨k, rfl⟩

theorem Sim.bind {m : HM α} {r : Res β} {f : α → HM γ} {g : β → Res δ} (k : Kept M0 M1)
    (s : Sim M1 R M m r)
    (t : ∀ M' a b, Kept M1 M' → R M' a b → Sim M0 R' M' (f a) (g b)) :
    Sim M0 R' M (m >>= f) (r >>= g) := by
  refine Safe.bind_iff.mpr (Safe.post ?_ (Safe.base k s))
  rintro M' x ⟨k', h⟩
  cases x <;> cases r <;> first | exact h.elim | skip
  · exact t _ _ _ k' h
  · exact ⟨k.trans k', h⟩
  · exact ⟨k.trans k', h⟩

/-- Code whose error is looked at. -/
theorem Sim.attempt {m : HM α} {r : Res β} {f : Except Err α → HM γ} {r' : Res δ} (k : Kept M0 M1)
    (s : Sim M1 R M m r)
    (ok : ∀ M' a b, r = .ok b → Kept M1 M' → R M' a b → Sim M0 R' M' (f (.ok a)) r')
    (err : ∀ M' e, r = .err e → Kept M1 M' → Sim M0 R' M' (f (.error e)) r')
    (panic : ∀ p, r = .panic p → r' = .panic p) :
    Sim M0 R' M (HM.attempt m >>= f) r' := by
  refine Safe.bind_iff.mpr (Safe.attempt_iff.mpr (Safe.post ?_ (Safe.base k s)))
  rintro M' x ⟨k', h⟩
  cases x <;> cases r <;> first | exact h.elim | skip
  · exact ok _ _ _ rfl k' h
  · cases h; exact err _ _ rfl k'
  · cases h
    rw [panic _ rfl]
    exact ⟨k.trans k', rfl⟩

/-- The last call: the rest of the Go code returns its result. -/
theorem Sim.mono {m : HM α} {r : Res β} {Q : Memory → α → β → Prop} (k : Kept M0 M1)
    (s : Sim M1 R M m r) (t : ∀ M' a b, Kept M1 M' → R M' a b → Q M' a b) : Sim M0 Q M m r := by
  refine Safe.post ?_ (Safe.base k s)
  rintro M' x ⟨k', h⟩
  refine ⟨k.trans k', ?_⟩
  cases x <;> cases r <;> first | exact t _ _ _ k' h | exact h

theorem Sim.load {sl : Slice} {b : Bytes} {f : Bytes → HM γ} {r : Res δ} (s : Shows M sl b)
    (t : Sim M0 R' M (f b) r) : Sim M0 R' M (HM.load sl >>= f) r := Safe.load s t

theorem Sim.lift {r : Res α} {f : α → HM γ} {g : α → Res δ} (k : Kept M0 M)
    (t : ∀ a, r = .ok a → Sim M0 R' M (f a) (g a)) : Sim M0 R' M (HM.lift r >>= f) (r >>= g) := by
  cases r with
  | ok a => exact t a rfl
  | err e => exact ⟨k, rfl⟩
  | panic p => exact ⟨k, rfl⟩

theorem Sim.lift_ret {r : Res α} (k : Kept M0 M) : Sim M0 (fun _ x y => x = y) M (HM.lift r) r := by
  cases r <;> exact ⟨k, rfl⟩

theorem Sim.getIdx {sl : Slice} {b : Bytes} {i : Nat} {f : UInt8 → HM γ} {g : UInt8 → Res δ}
    (k : Kept M0 M) (s : Shows M sl b) (t : ∀ a, index b i = .ok a → Sim M0 R' M (f a) (g a)) :
    Sim M0 R' M (HM.getIdx sl i >>= f) (index b i >>= g) := by
  unfold HM.getIdx
  by_cases hi : i < sl.len
  · have hb : i < b.length := by rw [s.len]; exact hi
    have e : index b i = .ok b[i] := by unfold index; rw [List.getElem?_eq_getElem hb]
    rw [if_pos hi, e]
    refine ⟨b[i], ?_, t _ e⟩
    rw [s.2.2 i hi, List.getElem?_eq_getElem hb]
  · have e : index b i = .panic .bounds := by
      unfold index; rw [List.getElem?_eq_none (by rw [s.len]; omega)]
    rw [if_neg hi, e]
    exact ⟨k, rfl⟩

theorem reslice_shows {sl : Slice} {b : Bytes} {lo hi : Nat} (s : Shows M sl b) (hl : lo ≤ hi)
    (hh : hi ≤ b.length) :
    Shows M ⟨sl.arr, sl.off + lo, hi - lo, sl.cap - lo⟩ ((b.take hi).drop lo) := by
  obtain ⟨h1, h2, h3⟩ := s
  refine ⟨by dsimp only; omega, by simp; omega, fun i hi => ?_⟩
  dsimp only at hi ⊢
  rw [Nat.add_assoc, h3 _ (by omega), List.getElem?_drop, List.getElem?_take, if_pos (by omega)]

theorem Sim.reslice {sl : Slice} {b : Bytes} {lo hi : Nat} {f : Slice → HM γ} {g : Bytes → Res δ}
    (k : Kept M0 M) (s : Shows M sl b) (hh : hi ≤ b.length)
    (t : ∀ sl', lo ≤ hi → sl'.arr = sl.arr → sl'.len = hi - lo → Shows M sl' ((b.take hi).drop lo) →
      Sim M0 R' M (f sl') (g ((b.take hi).drop lo))) :
    Sim M0 R' M (HM.reslice sl lo hi >>= f) (slice b lo hi >>= g) := by
  have hlen := s.len
  have hc : sl.len ≤ sl.cap := s.1
  unfold HM.reslice
  by_cases hl : lo ≤ hi
  · have e2 : slice b lo hi = .ok ((b.take hi).drop lo) := by
      unfold slice; rw [if_pos ⟨hl, hh⟩]
    rw [e2, if_pos ⟨hl, by omega⟩]
    exact t _ hl rfl rfl (reslice_shows s hl hh)
  · have e2 : slice b lo hi = .panic .bounds := by
      unfold slice; rw [if_neg (by omega)]
    rw [e2, if_neg (fun h => hl h.1)]
    exact ⟨k, rfl⟩

theorem Sim.resliceFrom {sl : Slice} {b : Bytes} {lo : Nat} {f : Slice → HM γ} {g : Bytes → Res δ}
    (k : Kept M0 M) (s : Shows M sl b)
    (t : ∀ sl', lo ≤ b.length → sl'.arr = sl.arr → sl'.len = sl.len - lo → Shows M sl' (b.drop lo) →
      Sim M0 R' M (f sl') (g (b.drop lo))) :
    Sim M0 R' M (HM.resliceFrom sl lo >>= f) (sliceFrom b lo >>= g) := by
  have hlen := s.len
  unfold HM.resliceFrom
  rw [← hlen]
  have e : sliceFrom b lo = slice b lo b.length := by
    unfold sliceFrom slice; simp
  rw [e]
  refine Sim.reslice k s (le_refl _) fun sl' h1 h2 h3 h4 => ?_
  rw [List.take_length] at *
  exact t sl' h1 h2 (by omega) h4

theorem Sim.new {b : Bytes} {f : Slice → HM γ} {r : Res δ}
    (t : ∀ a, M a = none → NewSlice M (M.upd a b) (newBuf a b.length) b →
      Sim M0 R' (M.upd a b) (f (newBuf a b.length)) r) :
    Sim M0 R' M (HM.new b >>= f) r :=
  fun a ha => t a ha (newSlice_new ha b)

/-- Returning new memory. -/
theorem Sim.new_ret {b : Bytes} (k : Kept M0 M) : Sim M0 (NewSlice M0) M (HM.new b) (.ok b) :=
  fun _ ha => ⟨k.trans (Kept.upd ha b), (newSlice_new ha b).weaken k⟩

end

/-! ### Filling a new array -/

/-- Array `a` is not in `M`, which has all that is in `M0`. -/
structure Fresh (M0 M : Memory) (a : Nat) : Prop where
  kept : Kept M0 M
  none : M a = none

theorem Fresh.upd {M0 M : Memory} {a : Nat} (f : Fresh M0 M a) (b : Bytes) : Kept M0 (M.upd a b) :=
  f.kept.trans (Kept.upd f.none b)

theorem Fresh.old {M0 M : Memory} {a : Nat} (f : Fresh M0 M a) : M0 a = Option.none := f.kept.none f.none

section
variable {γ δ : Type} {M0 M : Memory} {a : Nat} {R' : Memory → γ → δ → Prop}

theorem Sim.make {n : Nat} {f : Slice → HM γ} {r : Res δ} (k : Kept M0 M)
    (t : ∀ a, Fresh M0 M a → Sim M0 R' (M.upd a (makeBytes n)) (f (newBuf a n)) r) :
    Sim M0 R' M (HM.make n >>= f) r := by
  unfold HM.make
  refine Sim.new fun a ha _ => ?_
  have e : (makeBytes n).length = n := by unfold makeBytes; exact List.length_replicate
  rw [e]; exact t a ⟨k, ha⟩

theorem overwrite_take (b s : Bytes) (off : Nat) (ho : off ≤ b.length) :
    overwrite b off (s.take (b.length - off)) =
      b.take off ++ s.take (b.length - off) ++ b.drop (off + s.length) := by
  unfold overwrite
  congr 1
  rw [List.length_take]
  by_cases hs : s.length ≤ b.length - off
  · rw [Nat.min_eq_right hs]
  · rw [Nat.min_eq_left (by omega), List.drop_eq_nil_of_le (by omega), List.drop_eq_nil_of_le (by omega)]

theorem copyAt_length {b s b' : Bytes} {off : Nat} (e : copyAt b off s = .ok b') : b'.length = b.length := by
  unfold copyAt at e
  split at e
  · cases e; simp; omega
  · cases e

theorem copyAt_overwrite {b s : Bytes} {off : Nat} (ho : off ≤ b.length) :
    copyAt b off s = .ok (overwrite b off (s.take (b.length - off))) := by
  unfold copyAt
  rw [if_pos ho, overwrite_take b s off ho]

/-- `copy(d, src)` for a slice `d` of the new array that starts at `off` and goes to its end. -/
theorem Sim.copyBytes {b src : Bytes} {off n : Nat} {f : Unit → HM γ} {g : Bytes → Res δ}
    (hn : b.length = n) (fr : Fresh M0 M a) (ho : off ≤ n)
    (t : ∀ b', copyAt b off src = .ok b' → b'.length = n → Sim M0 R' (M.upd a b') (f ()) (g b')) :
    Sim M0 R' (M.upd a b) (HM.copyBytes ⟨a, off, n - off, n - off⟩ src >>= f) (copyAt b off src >>= g) := by
  subst hn
  have e := copyAt_overwrite (s := src) ho
  have t := t _ e (copyAt_length e)
  rw [e]
  refine Safe.writeFrom fr.old _ _ _ ?_ t
  rw [List.length_take]; dsimp only; omega

/-- `copy(buf, src)` -/
theorem Sim.copyBytes0 {b src : Bytes} {n : Nat} {f : Unit → HM γ} {g : Bytes → Res δ}
    (hn : b.length = n) (fr : Fresh M0 M a)
    (t : ∀ b', copyAt b 0 src = .ok b' → b'.length = n → Sim M0 R' (M.upd a b') (f ()) (g b')) :
    Sim M0 R' (M.upd a b) (HM.copyBytes (newBuf a n) src >>= f) (copyAt b 0 src >>= g) :=
  Sim.copyBytes hn fr (Nat.zero_le _) t

/-- `buf[off:]` of the new array. -/
theorem Sim.tail {M' : Memory} {off n : Nat} {f : Slice → HM γ} {r : Res δ} (k : Kept M0 M')
    (t : off ≤ n → Sim M0 R' M' (f ⟨a, off, n - off, n - off⟩) r) (p : ¬ off ≤ n → r = .panic .bounds) :
    Sim M0 R' M' (HM.resliceFrom (newBuf a n) off >>= f) r := by
  unfold HM.resliceFrom HM.reslice newBuf
  dsimp only
  by_cases ho : off ≤ n
  · rw [if_pos ⟨ho, le_refl _⟩, Nat.zero_add]
    exact t ho
  · rw [if_neg (fun h => ho h.1), p ho]
    exact ⟨k, rfl⟩

/-- `copy(buf[off:], src)` -/
theorem Sim.copyBytesAt {b src : Bytes} {off n : Nat} {f : Unit → HM γ} {g : Bytes → Res δ} (hn : b.length = n)
    (fr : Fresh M0 M a)
    (t : ∀ b', copyAt b off src = .ok b' → b'.length = n → Sim M0 R' (M.upd a b') (f ()) (g b')) :
    Sim M0 R' (M.upd a b) (HM.resliceFrom (newBuf a n) off >>= fun d => HM.copyBytes d src >>= f)
      (copyAt b off src >>= g) :=
  Sim.tail (fr.upd b) (fun ho => Sim.copyBytes hn fr ho t) fun ho => by
    unfold copyAt; rw [if_neg (by omega)]; rfl

/-- `copy(d, src)` for a slice. -/
theorem Sim.copySlice {M' : Memory} {dst src : Slice} {sb : Bytes} {f : Unit → HM γ} {r : Res δ} (s : Shows M' src sb)
    (t : Sim M0 R' M' (HM.copyBytes dst sb >>= f) r) : Sim M0 R' M' (HM.copySlice dst src >>= f) r := by
  unfold HM.copySlice
  refine Safe.bind_iff.mpr ?_
  exact Safe.load s (Safe.bind_iff.mp t)

theorem Sim.copySlice0 {b sb : Bytes} {src : Slice} {n : Nat} {f : Unit → HM γ} {g : Bytes → Res δ}
    (hn : b.length = n) (fr : Fresh M0 M a) (s : Shows (M.upd a b) src sb)
    (t : ∀ b', copyAt b 0 sb = .ok b' → b'.length = n → Sim M0 R' (M.upd a b') (f ()) (g b')) :
    Sim M0 R' (M.upd a b) (HM.copySlice (newBuf a n) src >>= f) (copyAt b 0 sb >>= g) :=
  Sim.copySlice s (Sim.copyBytes0 hn fr t)

theorem Sim.copySliceAt {b sb : Bytes} {src : Slice} {off n : Nat} {f : Unit → HM γ} {g : Bytes → Res δ}
    (hn : b.length = n) (fr : Fresh M0 M a) (s : Shows (M.upd a b) src sb)
    (t : ∀ b', copyAt b off sb = .ok b' → b'.length = n → Sim M0 R' (M.upd a b') (f ()) (g b')) :
    Sim M0 R' (M.upd a b) (HM.resliceFrom (newBuf a n) off >>= fun d => HM.copySlice d src >>= f)
      (copyAt b off sb >>= g) :=
  Sim.tail (fr.upd b) (fun ho => Sim.copySlice s (Sim.copyBytes hn fr ho t)) fun ho => by
    unfold copyAt; rw [if_neg (by omega)]; rfl

theorem Sim.setIdx {b : Bytes} {i n : Nat} {v : UInt8} {f : Unit → HM γ} {g : Bytes → Res δ}
    (hn : b.length = n) (fr : Fresh M0 M a)
    (t : ∀ b', setIndex b i v = .ok b' → b'.length = n → Sim M0 R' (M.upd a b') (f ()) (g b')) :
    Sim M0 R' (M.upd a b) (HM.setIdx (newBuf a n) i v >>= f) (setIndex b i v >>= g) := by
  subst hn
  unfold HM.setIdx newBuf
  dsimp only
  by_cases hi : i < b.length
  · have e : setIndex b i v = .ok (b.set i v) := by unfold setIndex; rw [if_pos hi]
    have t := t _ e (by simp)
    rw [e, if_pos hi, Nat.zero_add]
    refine ⟨b, Memory.upd_self .., hi, fr.old, ?_⟩
    rw [Memory.upd_upd]
    exact t
  · have e : setIndex b i v = .panic .bounds := by unfold setIndex; rw [if_neg hi]
    rw [e, if_neg hi]
    exact ⟨fr.upd b, rfl⟩

/-- Returning the array that has been filled. -/
theorem Sim.ret_new {b : Bytes} {n : Nat} (hn : b.length = n) (fr : Fresh M0 M a) :
    Sim M0 (NewSlice M0) (M.upd a b) (Pure.pure (newBuf a n)) (.ok b) := by
  subst hn
  exact Sim.pure (fr.upd b) ((newSlice_new fr.none b).weaken fr.kept)

theorem Sim.putUint16 {b : Bytes} {off n : Nat} {v : UInt16} {f : Unit → HM γ} {g : Bytes → Res δ}
    (hn : b.length = n) (fr : Fresh M0 M a) (ho : off ≤ n)
    (t : ∀ b', Migp.putUint16At b off v = .ok b' → b'.length = n → Sim M0 R' (M.upd a b') (f ()) (g b')) :
    Sim M0 R' (M.upd a b) (HM.putUint16 ⟨a, off, n - off, n - off⟩ v >>= f) (Migp.putUint16At b off v >>= g) := by
  unfold HM.putUint16
  unfold Migp.putUint16At at *
  dsimp only
  by_cases h2 : off + 2 ≤ n
  · rw [if_pos (by omega)] at t ⊢
    rw [if_pos (by omega)]
    exact Sim.copyBytes hn fr ho t
  · rw [if_neg (by omega), if_neg (by omega)]
    exact ⟨fr.upd b, rfl⟩

theorem Sim.putUint32 {b : Bytes} {off n : Nat} {v : UInt32} {f : Unit → HM γ} {g : Bytes → Res δ}
    (hn : b.length = n) (fr : Fresh M0 M a) (ho : off ≤ n)
    (t : ∀ b', Migp.putUint32At b off v = .ok b' → b'.length = n → Sim M0 R' (M.upd a b') (f ()) (g b')) :
    Sim M0 R' (M.upd a b) (HM.putUint32 ⟨a, off, n - off, n - off⟩ v >>= f) (Migp.putUint32At b off v >>= g) := by
  unfold HM.putUint32
  unfold Migp.putUint32At at *
  dsimp only
  by_cases h2 : off + 4 ≤ n
  · rw [if_pos (by omega)] at t ⊢
    rw [if_pos (by omega)]
    exact Sim.copyBytes hn fr ho t
  · rw [if_neg (by omega), if_neg (by omega)]
    exact ⟨fr.upd b, rfl⟩

theorem Sim.putUint16At {b : Bytes} {off n : Nat} {v : UInt16} {f : Unit → HM γ} {g : Bytes → Res δ}
    (hn : b.length = n) (fr : Fresh M0 M a)
    (t : ∀ b', Migp.putUint16At b off v = .ok b' → b'.length = n → Sim M0 R' (M.upd a b') (f ()) (g b')) :
    Sim M0 R' (M.upd a b) (HM.resliceFrom (newBuf a n) off >>= fun d => HM.putUint16 d v >>= f)
      (Migp.putUint16At b off v >>= g) :=
  Sim.tail (fr.upd b) (fun ho => Sim.putUint16 hn fr ho t) fun ho => by
    unfold Migp.putUint16At; rw [if_neg (by omega)]; rfl

theorem Sim.putUint32At {b : Bytes} {off n : Nat} {v : UInt32} {f : Unit → HM γ} {g : Bytes → Res δ}
    (hn : b.length = n) (fr : Fresh M0 M a)
    (t : ∀ b', Migp.putUint32At b off v = .ok b' → b'.length = n → Sim M0 R' (M.upd a b') (f ()) (g b')) :
    Sim M0 R' (M.upd a b) (HM.resliceFrom (newBuf a n) off >>= fun d => HM.putUint32 d v >>= f)
      (Migp.putUint32At b off v >>= g) :=
  Sim.tail (fr.upd b) (fun ho => Sim.putUint32 hn fr ho t) fun ho => by
    unfold Migp.putUint32At; rw [if_neg (by omega)]; rfl

theorem Sim.putUint16_0 {b : Bytes} {n : Nat} {v : UInt16} {f : Unit → HM γ} {g : Bytes → Res δ}
    (hn : b.length = n) (fr : Fresh M0 M a)
    (t : ∀ b', Migp.putUint16At b 0 v = .ok b' → b'.length = n → Sim M0 R' (M.upd a b') (f ()) (g b')) :
    Sim M0 R' (M.upd a b) (HM.putUint16 (newBuf a n) v >>= f) (Migp.putUint16At b 0 v >>= g) :=
  Sim.putUint16 hn fr (Nat.zero_le _) t

end

/-! ### Running by itself -/

theorem Heap.mem_append (h : Heap) (b : Bytes) : Heap.mem (h ++ [b]) = h.mem.upd h.length b := by
  funext x
  unfold Heap.mem Memory.upd
  split
  · rename_i e; subst e; simp
  · rename_i e
    rcases Nat.lt_or_gt_of_ne e with hx | hx
    · rw [List.getElem?_append_left hx]
    · rw [List.getElem?_eq_none (by simp; omega)]
      exact (List.getElem?_eq_none (by omega)).symm

theorem Heap.mem_none (h : Heap) : h.mem h.length = none := List.getElem?_eq_none (le_refl _)

theorem Heap.mem_setByte {h : Heap} {a i : Nat} {x : Bytes} {v : UInt8} (hx : h.mem a = some x) :
    (h.setByte a i v).mem = h.mem.upd a (x.set i v) := by
  have ha : a < h.length := (List.getElem?_eq_some_iff.mp hx).1
  funext y
  unfold Heap.mem at *
  unfold Heap.setByte Memory.upd
  rw [hx, Option.getD_some]
  by_cases e : y = a
  · subst e; rw [if_pos rfl, List.getElem?_set_self ha]
  · rw [if_neg e, List.getElem?_set_ne (Ne.symm e)]

theorem Heap.byte_of_mem {h : Heap} {a i : Nat} {v : UInt8} (hv : h.mem.byte a i = some v) : h.byte a i = v := by
  unfold Memory.byte Heap.mem at hv
  unfold Heap.byte
  cases hx : h[a]? with
  | none => rw [hx] at hv; cases hv
  | some x =>
    rw [hx] at hv
    have hv : x[i]? = some v := hv
    rw [Option.getD_some, hv]; rfl

theorem Safe.run {α : Type} {base : Memory} {P : Memory → Res α → Prop} :
    ∀ {m : HM α} {h : Heap}, Safe base m h.mem P → P (m.run h).2.mem (m.run h).1
  | .done r, h, s => s
  | .alloc b k, h, s => by
    have := s _ h.mem_none
    rw [← Heap.mem_append] at this
    exact Safe.run (m := k h.length) this
  | .read a i k, h, ⟨v, hv, s⟩ => by
    unfold HM.run
    rw [Heap.byte_of_mem hv]
    exact Safe.run s
  | .write a i v k, h, ⟨x, hx, hi, hb, s⟩ => by
    rw [← Heap.mem_setByte hx] at s
    exact Safe.run (m := k) s

/-- What is proved about code that is interleaved with other code also holds of code that is run by itself. -/
theorem Sim.does {α β : Type} {h : Heap} {m : HM α} {r : Res β} {R : Memory → α → β → Prop}
    (s : Sim h.mem R h.mem m r) : Does h m r R := Safe.run s

end Migp
