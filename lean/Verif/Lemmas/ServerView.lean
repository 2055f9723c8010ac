import Verif.Spec.ServerConc
import Verif.Lemmas.Parallel
/-!
# Reasoning about one goroutine of the server

`SSafe J m v P`: whatever the other goroutines do, code `m`, when the goroutine knows `v`, reads only bytes that it
knows, writes only bytes that are its own, uses the map only while it holds the lock, makes only calls of the store such
that `J` holds of its calls so far, and ends with an outcome and knowledge that satisfy `P`.
-/
namespace Migp
open Spec HM

/-- Where a goroutine is in a call of the store. -/
inductive Mode where
  /-- not in a call, or in one but without the lock -/
  | free
  /-- holds the lock for reading -/
  | reading
  /-- holds the lock for writing -/
  | locked
  /-- has also read the slice `sl` of `id`, with contents `old` -/
  | loaded (id : GoString) (sl : Slice) (old : Bytes)
  /-- has also written the map -/
  | stored

/-- What a goroutine knows: its calls of the store so far, arrays that will keep at least these first bytes, and arrays
that only it writes to, with their contents. -/
structure View where
  mode : Mode
  trace : List (KVOp × Bytes)
  fro : Memory
  own : Memory

/-- What of memory the goroutine knows. -/
def View.mem (v : View) : Memory := fun a =>
  match v.own a with
  | some x => some x
  | none => v.fro a

/-- Memory with another content of the array of a slice, if it has one. -/
def Memory.updS (M : Memory) (sl : Slice) (b : Bytes) : Memory := if sl.cap = 0 then M else M.upd sl.arr b

/-- Memory without the array of a slice, if it has one. -/
def Memory.delS (M : Memory) (sl : Slice) : Memory := if sl.cap = 0 then M else fun a => if a = sl.arr then none else M a

/-- The goroutine may find slice `sl` with contents `b` in the store. -/
structure View.MayGet (v : View) (sl : Slice) (b : Bytes) : Prop where
  off : sl.off = 0
  le : sl.len ≤ sl.cap
  len : b.length = sl.len
  own : sl.cap ≠ 0 → v.own sl.arr = none
  fro : sl.cap ≠ 0 → ∀ f, v.fro sl.arr = some f → f <+: b

/-- The goroutine may store slice `new` with contents `b` in place of `sl`. -/
structure View.MaySet (v : View) (sl new : Slice) (b x : Bytes) : Prop where
  off : new.off = 0
  le : new.len ≤ new.cap
  len : b.length = new.len
  own : new.cap ≠ 0 → v.own new.arr = some x
  cap : new.cap ≠ 0 → x.length = new.cap
  shows : new.cap ≠ 0 → x.take new.len = b
  fro : new.cap ≠ 0 → new.arr = sl.arr ∧ sl.cap ≠ 0 ∨ v.fro new.arr = none

/-- See above. -/
def SSafe {α : Type} (J : List (KVOp × Bytes) → Prop) : SM α → View → (View → Res α → Prop) → Prop
  | .done r, v, P => P v r
  | .alloc b k, v, P => ∀ a, v.mem a = none → SSafe J (k a) { v with own := v.own.upd a b } P
  | .grow n k, v, P => ∀ a x, v.mem a = none → n ≤ x.length →
      SSafe J (k a x.length) { v with own := v.own.upd a x } P
  | .read a i k, v, P => ∃ y, v.mem.byte a i = some y ∧ SSafe J (k y) v P
  | .write a i y k, v, P => ∃ x, v.own a = some x ∧ i < x.length ∧ (∀ f, v.fro a = some f → f.length ≤ i) ∧
      SSafe J k { v with own := v.own.upd a (x.set i y) } P
  | .lock k, v, P => v.mode = .free ∧ SSafe J k { v with mode := .locked } P
  | .unlock k, v, P => v.mode = .stored ∧ SSafe J k { v with mode := .free } P
  | .rlock k, v, P => v.mode = .free ∧ SSafe J k { v with mode := .reading } P
  | .runlock k, v, P => v.mode = .reading ∧ SSafe J k { v with mode := .free } P
  | .mapGet id k, v, P =>
      (v.mode = .reading ∧ ∀ sl b, v.MayGet sl b → J (v.trace ++ [(.get id, b)]) ∧
        SSafe J (k sl) { v with trace := v.trace ++ [(.get id, b)], fro := v.fro.updS sl b } P) ∨
      (v.mode = .locked ∧ ∀ sl x, x.length = sl.cap → v.MayGet sl (x.take sl.len) →
        SSafe J (k sl) { v with mode := .loaded id sl (x.take sl.len), fro := v.fro.updS sl (x.take sl.len),
                                own := v.own.updS sl x } P)
  | .mapSet id new k, v, P => ∃ sl old b x, v.mode = .loaded id sl old ∧ v.MaySet sl new (old ++ b) x ∧
      J (v.trace ++ [(.append id b, [])]) ∧
        SSafe J k { mode := .stored, trace := v.trace ++ [(.append id b, [])], fro := v.fro.updS new (old ++ b),
                    own := v.own.delS new } P

section
variable {α β : Type} {J : List (KVOp × Bytes) → Prop}

theorem SSafe.post {P Q : View → Res α → Prop} (h : ∀ v r, P v r → Q v r) :
    ∀ {m : SM α} {v : View}, SSafe J m v P → SSafe J m v Q
  | .done r, v, s => h v r s
  | .alloc _ _, _, s => fun a ha => SSafe.post h (s a ha)
  | .grow _ _, _, s => fun a x ha hx => SSafe.post h (s a x ha hx)
  | .read _ _ _, _, ⟨y, hy, s⟩ => ⟨y, hy, SSafe.post h s⟩
  | .write _ _ _ _, _, ⟨x, hx, hi, hf, s⟩ => ⟨x, hx, hi, hf, SSafe.post h s⟩
  | .lock _, _, ⟨e, s⟩ => ⟨e, SSafe.post h s⟩
  | .unlock _, _, ⟨e, s⟩ => ⟨e, SSafe.post h s⟩
  | .rlock _, _, ⟨e, s⟩ => ⟨e, SSafe.post h s⟩
  | .runlock _, _, ⟨e, s⟩ => ⟨e, SSafe.post h s⟩
  | .mapGet _ _, _, .inl ⟨e, s⟩ => .inl ⟨e, fun sl b hb => ⟨(s sl b hb).1, SSafe.post h (s sl b hb).2⟩⟩
  | .mapGet _ _, _, .inr ⟨e, s⟩ => .inr ⟨e, fun sl x hx hb => SSafe.post h (s sl x hx hb)⟩
  | .mapSet _ _ _, _, ⟨sl, old, b, x, e, hm, hj, s⟩ => ⟨sl, old, b, x, e, hm, hj, SSafe.post h s⟩

theorem SM.bind_assoc {γ : Type} (f : α → SM β) (g : β → SM γ) : ∀ m : SM α, (m >>= f) >>= g = m >>= fun a => f a >>= g
  | .done (.ok _) => rfl
  | .done (.err _) => rfl
  | .done (.panic _) => rfl
  | .alloc b k => congrArg (SM.alloc b) (funext fun a => SM.bind_assoc f g (k a))
  | .grow n k => congrArg (SM.grow n) (funext fun a => funext fun c => SM.bind_assoc f g (k a c))
  | .read a i k => congrArg (SM.read a i) (funext fun y => SM.bind_assoc f g (k y))
  | .write a i y k => congrArg (SM.write a i y) (SM.bind_assoc f g k)
  | .lock k => congrArg SM.lock (SM.bind_assoc f g k)
  | .unlock k => congrArg SM.unlock (SM.bind_assoc f g k)
  | .rlock k => congrArg SM.rlock (SM.bind_assoc f g k)
  | .runlock k => congrArg SM.runlock (SM.bind_assoc f g k)
  | .mapGet id k => congrArg (SM.mapGet id) (funext fun sl => SM.bind_assoc f g (k sl))
  | .mapSet id sl k => congrArg (SM.mapSet id sl) (SM.bind_assoc f g k)

/-- What has to hold after the first of two pieces of code. -/
def SBindPost (J : List (KVOp × Bytes) → Prop) (f : α → SM β) (P : View → Res β → Prop) (v : View) : Res α → Prop
  | .ok a => SSafe J (f a) v P
  | .err e => P v (.err e)
  | .panic p => P v (.panic p)

theorem SSafe.bind {f : α → SM β} {P : View → Res β → Prop} :
    ∀ {m : SM α} {v : View}, SSafe J m v (SBindPost J f P) → SSafe J (m >>= f) v P
  | .done (.ok a), v, s => s
  | .done (.err e), v, s => s
  | .done (.panic p), v, s => s
  | .alloc _ k, _, s => fun a ha => SSafe.bind (m := k a) (s a ha)
  | .grow _ k, _, s => fun a x ha hx => SSafe.bind (m := k a x.length) (s a x ha hx)
  | .read _ _ k, _, ⟨y, hy, s⟩ => ⟨y, hy, SSafe.bind (m := k y) s⟩
  | .write _ _ _ k, _, ⟨x, hx, hi, hf, s⟩ => ⟨x, hx, hi, hf, SSafe.bind (m := k) s⟩
  | .lock k, _, ⟨e, s⟩ => ⟨e, SSafe.bind (m := k) s⟩
  | .unlock k, _, ⟨e, s⟩ => ⟨e, SSafe.bind (m := k) s⟩
  | .rlock k, _, ⟨e, s⟩ => ⟨e, SSafe.bind (m := k) s⟩
  | .runlock k, _, ⟨e, s⟩ => ⟨e, SSafe.bind (m := k) s⟩
  | .mapGet _ k, _, .inl ⟨e, s⟩ => .inl ⟨e, fun sl b hb => ⟨(s sl b hb).1, SSafe.bind (m := k sl) (s sl b hb).2⟩⟩
  | .mapGet _ k, _, .inr ⟨e, s⟩ => .inr ⟨e, fun sl x hx hb => SSafe.bind (m := k sl) (s sl x hx hb)⟩
  | .mapSet _ _ k, _, ⟨sl, old, b, x, e, hm, hj, s⟩ => ⟨sl, old, b, x, e, hm, hj, SSafe.bind (m := k) s⟩

/-- What has to hold after code whose error is looked at. -/
def SAttemptPost (P : View → Res (Except Err α) → Prop) (v : View) : Res α → Prop
  | .ok a => P v (.ok (.ok a))
  | .err e => P v (.ok (.error e))
  | .panic p => P v (.panic p)

theorem SSafe.attempt {P : View → Res (Except Err α) → Prop} :
    ∀ {m : SM α} {v : View}, SSafe J m v (SAttemptPost P) → SSafe J (SM.attempt m) v P
  | .done (.ok a), v, s => s
  | .done (.err e), v, s => s
  | .done (.panic p), v, s => s
  | .alloc _ k, _, s => fun a ha => SSafe.attempt (m := k a) (s a ha)
  | .grow _ k, _, s => fun a x ha hx => SSafe.attempt (m := k a x.length) (s a x ha hx)
  | .read _ _ k, _, ⟨y, hy, s⟩ => ⟨y, hy, SSafe.attempt (m := k y) s⟩
  | .write _ _ _ k, _, ⟨x, hx, hi, hf, s⟩ => ⟨x, hx, hi, hf, SSafe.attempt (m := k) s⟩
  | .lock k, _, ⟨e, s⟩ => ⟨e, SSafe.attempt (m := k) s⟩
  | .unlock k, _, ⟨e, s⟩ => ⟨e, SSafe.attempt (m := k) s⟩
  | .rlock k, _, ⟨e, s⟩ => ⟨e, SSafe.attempt (m := k) s⟩
  | .runlock k, _, ⟨e, s⟩ => ⟨e, SSafe.attempt (m := k) s⟩
  | .mapGet _ k, _, .inl ⟨e, s⟩ => .inl ⟨e, fun sl b hb => ⟨(s sl b hb).1, SSafe.attempt (m := k sl) (s sl b hb).2⟩⟩
  | .mapGet _ k, _, .inr ⟨e, s⟩ => .inr ⟨e, fun sl x hx hb => SSafe.attempt (m := k sl) (s sl x hx hb)⟩
  | .mapSet _ _ k, _, ⟨sl, old, b, x, e, hm, hj, s⟩ => ⟨sl, old, b, x, e, hm, hj, SSafe.attempt (m := k) s⟩

/-! ### Knowledge that grows -/

/-- All that was known of memory is still known. -/
def Grows (M M' : Memory) : Prop := ∀ a f, M a = some f → ∃ f', M' a = some f' ∧ f <+: f'

theorem Grows.refl (M : Memory) : Grows M M := fun _ f h => ⟨f, h, List.prefix_rfl⟩

theorem Grows.trans {M1 M2 M3 : Memory} (g : Grows M1 M2) (g' : Grows M2 M3) : Grows M1 M3 := fun a f h =>
  let ⟨f', h', p⟩ := g a f h
  let ⟨f'', h'', p'⟩ := g' a f' h'
  ⟨f'', h'', p.trans p'⟩

theorem _root_.Migp.Spec.Kept.grows {M M' : Memory} (k : Kept M M') : Grows M M' := fun a f h =>
  ⟨f, k a f h, List.prefix_rfl⟩

theorem Grows.byte {M M' : Memory} (g : Grows M M') {a i : Nat} {v : UInt8} (h : M.byte a i = some v) :
    M'.byte a i = some v := by
  unfold Memory.byte at *
  cases hm : M a with
  | none => rw [hm] at h; cases h
  | some f =>
    rw [hm] at h
    obtain ⟨f', hf, p⟩ := g a f hm
    rw [hf]
    have h : f[i]? = some v := h
    show f'[i]? = some v
    obtain ⟨hi, he⟩ := List.getElem?_eq_some_iff.mp h
    obtain ⟨r, rfl⟩ := p
    rw [List.getElem?_append_left hi, h]

theorem _root_.Migp.Spec.Shows.grow {M M' : Memory} {sl : Slice} {b : Bytes} (s : Shows M sl b) (g : Grows M M') :
    Shows M' sl b := by
  refine ⟨s.1, s.2.1, fun i hi => ?_⟩
  have hb : i < b.length := by rw [s.2.1]; exact hi
  have e := s.2.2 i hi
  rw [List.getElem?_eq_getElem hb] at e ⊢
  exact g.byte e

theorem View.mem_own {v : View} {a : Nat} {x : Bytes} (h : v.own a = some x) : v.mem a = some x := by
  unfold View.mem; rw [h]

theorem View.mem_fro {v : View} {a : Nat} (h : v.own a = none) : v.mem a = v.fro a := by
  unfold View.mem; rw [h]

theorem View.mem_none {v : View} {a : Nat} (h : v.mem a = none) : v.own a = none ∧ v.fro a = none := by
  unfold View.mem at h
  cases ho : v.own a with
  | none => rw [ho] at h; exact ⟨rfl, h⟩
  | some x => rw [ho] at h; cases h

theorem View.mem_upd (v : View) (a : Nat) (x : Bytes) : ({ v with own := v.own.upd a x } : View).mem = v.mem.upd a x := by
  funext c
  unfold View.mem Memory.upd
  dsimp only
  by_cases e : c = a
  · rw [if_pos e, if_pos e]
  · rw [if_neg e, if_neg e]

/-! ### Code of the library -/

/-- Code of the library only adds to and changes what the goroutine owns. -/
theorem SSafe.lift {base : Memory} {Q : Memory → Res α → Prop} {P : View → Res α → Prop} :
    ∀ {m : HM α} {v : View}, Safe base m v.mem Q →
      (∀ a x, base a = none → v.mem a = some x → v.own a = some x ∧ v.fro a = none) →
      (∀ v' r, v'.mode = v.mode → v'.trace = v.trace → Q v'.mem r → P v' r) → SSafe J (SM.lift m) v P
  | .done r, v, s, _, h => h v r rfl rfl s
  | .alloc b k, v, s, hb, h => fun a ha => by
    refine SSafe.lift (base := base) (m := k a) (v := { v with own := v.own.upd a b }) ?_ ?_ h
    · rw [View.mem_upd]; exact s a ha
    · intro c x hc hx
      rw [View.mem_upd] at hx
      dsimp only
      by_cases e : c = a
      · subst e
        rw [Memory.upd_self] at hx ⊢
        exact ⟨hx, (View.mem_none ha).2⟩
      · rw [Memory.upd_ne _ _ e] at hx ⊢
        exact hb c x hc hx
  | .read a i k, v, ⟨y, hy, s⟩, hb, h => ⟨y, hy, SSafe.lift (m := k y) s hb h⟩
  | .write a i y k, v, ⟨x, hx, hi, ha, s⟩, hb, h => by
    obtain ⟨ho, hf⟩ := hb a x ha hx
    refine ⟨x, ho, hi, (fun f h => by rw [hf] at h; cases h), ?_⟩
    refine SSafe.lift (base := base) (m := k) (v := { v with own := v.own.upd a (x.set i y) }) ?_ ?_ h
    · rw [View.mem_upd]; exact s
    · intro c z hc hz
      rw [View.mem_upd] at hz
      dsimp only
      by_cases e : c = a
      · subst e
        rw [Memory.upd_self] at hz ⊢
        exact ⟨hz, hf⟩
      · rw [Memory.upd_ne _ _ e] at hz ⊢
        exact hb c z hc hz

/-- Code of the library that does what the model on values says. -/
theorem SSafe.sim {γ δ : Type} {R : Memory → γ → δ → Prop} {m : HM γ} {r : Res δ} {v : View} {f : γ → SM β}
    {P : View → Res β → Prop} (s : Sim v.mem R v.mem m r)
    (ok : ∀ v' a b, r = .ok b → v'.mode = v.mode → v'.trace = v.trace → Kept v.mem v'.mem → R v'.mem a b →
      SSafe J (f a) v' P)
    (err : ∀ v' e, r = .err e → v'.mode = v.mode → v'.trace = v.trace → P v' (.err e))
    (panic : ∀ v' p, r = .panic p → v'.mode = v.mode → v'.trace = v.trace → P v' (.panic p)) :
    SSafe J (SM.lift m >>= f) v P := by
  refine SSafe.bind (SSafe.lift s ?_ ?_)
  · intro a x h h'; rw [h] at h'; cases h'
  · rintro v' x hm ht ⟨hk, ha⟩
    cases x <;> cases r <;> first | exact ha.elim | skip
    · exact ok v' _ _ rfl hm ht hk ha
    · cases ha; exact err v' _ rfl hm ht
    · cases ha; exact panic v' _ rfl hm ht

end

/-! ### Calls of the store -/

section
variable {α β : Type} {J : List (KVOp × Bytes) → Prop}

/-- Copying bytes that are known to an array that is the goroutine's own. -/
theorem SSafe.copy {f : Unit → SM β} {P : View → Res β → Prop} {dst dOff src sOff : Nat} :
    ∀ (l : Bytes) (i : Nat) (v : View) (x : Bytes), v.own dst = some x → dOff + i + l.length ≤ x.length →
      (∀ g, v.fro dst = some g → g.length ≤ dOff + i) → (l ≠ [] → src ≠ dst ∨ sOff + i + l.length ≤ dOff + i) →
      (∀ j < l.length, v.mem.byte src (sOff + i + j) = l[j]?) →
      SSafe J (f ()) { v with own := v.own.upd dst (overwrite x (dOff + i) l) } P →
      SSafe J (copyS dst dOff src sOff l.length i >>= f) v P
  | [], i, v, x, ho, hl, hf, hne, hb, s => by
    have e : overwrite x (dOff + i) [] = x := by unfold overwrite; simp
    rw [e] at s
    have e2 : v.own.upd dst x = v.own := by
      funext c; unfold Memory.upd; split
      · rename_i e; rw [e, ho]
      · rfl
    rw [e2] at s
    exact s
  | y :: l, i, v, x, ho, hl, hf, hne, hb, s => by
    rw [List.length_cons] at hl
    have hb0 := hb 0 (by simp)
    refine ⟨y, hb0, x, ho, by omega, hf, ?_⟩
    have hsrc : src ≠ dst ∨ sOff + i + (l.length + 1) ≤ dOff + i := hne (by simp)
    refine SSafe.copy l (i + 1) { v with own := v.own.upd dst (x.set (dOff + i) y) } (x.set (dOff + i) y)
      (Memory.upd_self ..) (by simp; omega) (fun g hg => by have := hf g hg; omega) (fun _ => hsrc.imp_right fun h => by omega) ?_ ?_
    · intro j hj
      have := hb (j + 1) (by simp; omega)
      rw [List.getElem?_cons_succ] at this
      rw [← this, View.mem_upd, show sOff + (i + 1) + j = sOff + i + (j + 1) by omega]
      unfold Memory.byte
      by_cases e : src = dst
      · have hlt : sOff + i + (l.length + 1) ≤ dOff + i := hsrc.resolve_left (fun h => h e)
        subst e
        rw [Memory.upd_self, View.mem_own ho]
        show (x.set (dOff + i) y)[sOff + i + (j + 1)]? = x[sOff + i + (j + 1)]?
        rw [List.getElem?_set_ne (by omega)]
      · rw [Memory.upd_ne _ _ e]
    · dsimp only
      rw [Memory.upd_upd]
      have e := overwrite_cons x (dOff + i) y l (by omega)
      rw [← Nat.add_assoc, e]
      exact s

theorem Memory.updS_mem {M : Memory} {sl : Slice} {b : Bytes} (h : sl.cap ≠ 0) : M.updS sl b = M.upd sl.arr b := if_neg h

theorem Memory.updS_nil {M : Memory} {sl : Slice} {b : Bytes} (h : sl.cap = 0) : M.updS sl b = M := if_pos h

theorem Memory.delS_mem {M : Memory} {sl : Slice} (h : sl.cap ≠ 0) :
    M.delS sl = fun a => if a = sl.arr then none else M a := if_neg h

theorem Memory.delS_nil {M : Memory} {sl : Slice} (h : sl.cap = 0) : M.delS sl = M := if_pos h

/-- `Get` gives the goroutine a slice with the contents at that moment, which stay. -/
theorem SSafe.get {id : GoString} {f : Slice → SM β} {P : View → Res β → Prop} {v : View} (free : v.mode = .free)
    (t : ∀ v' sl b, v'.mode = .free → v'.trace = v.trace ++ [(.get id, b)] → Grows v.mem v'.mem → Shows v'.mem sl b →
      J v'.trace ∧ SSafe J (f sl) v' P) :
    SSafe J (kvGetS id >>= f) v P := by
  refine ⟨free, Or.inl ⟨rfl, fun sl b g => ?_⟩⟩
  have g : v.MayGet sl b := ⟨g.off, g.le, g.len, g.own, g.fro⟩
  have g1 : Grows v.mem ({ v with fro := v.fro.updS sl b } : View).mem := by
    by_cases hc : sl.cap = 0
    · rw [Memory.updS_nil hc]; exact Grows.refl _
    · rw [Memory.updS_mem hc]
      intro a x hx
      by_cases e : a = sl.arr
      · subst e
        rw [View.mem_fro (g.own hc)] at hx
        refine ⟨b, ?_, g.fro hc x hx⟩
        rw [View.mem_fro (v := { v with fro := v.fro.upd sl.arr b }) (g.own hc)]
        exact Memory.upd_self ..
      · refine ⟨x, ?_, List.prefix_rfl⟩
        unfold View.mem at hx ⊢
        dsimp only
        rw [Memory.upd_ne _ _ e]; exact hx
  have s1 : Shows ({ v with fro := v.fro.updS sl b } : View).mem sl b := by
    refine ⟨g.le, g.len, fun i hi => ?_⟩
    have hc : sl.cap ≠ 0 := by have := g.le; omega
    unfold Memory.byte
    rw [View.mem_fro (v := { v with fro := v.fro.updS sl b }) (g.own hc)]
    dsimp only
    rw [Memory.updS_mem hc, Memory.upd_self, g.off, Nat.zero_add]; rfl
  have := t { v with mode := .free, trace := v.trace ++ [(.get id, b)], fro := v.fro.updS sl b } sl b rfl rfl g1 s1
  exact ⟨this.1, rfl, this.2⟩

theorem overwrite_take_left (x l : Bytes) (n : Nat) (h : n + l.length ≤ x.length) :
    (overwrite x n l).take (n + l.length) = x.take n ++ l := by
  unfold overwrite
  have : (x.take n ++ l).length = n + l.length := by simp; omega
  rw [← this, List.take_left']; rfl

theorem overwrite_length (x l : Bytes) (n : Nat) (h : n + l.length ≤ x.length) : (overwrite x n l).length = x.length := by
  unfold overwrite; simp; omega

/-- `Append` of a slice that the goroutine knows. -/
theorem SSafe.append {id : GoString} {value : Slice} {b : Bytes} {f : Unit → SM β} {P : View → Res β → Prop} {v : View}
    (free : v.mode = .free) (hv : Shows v.mem value b) (hJ : J (v.trace ++ [(.append id b, [])]))
    (t : ∀ v', v'.mode = .free → v'.trace = v.trace ++ [(.append id b, [])] → Grows v.mem v'.mem →
      SSafe J (f ()) v' P) :
    SSafe J (kvAppendS id value >>= f) v P := by
  refine ⟨free, Or.inr ⟨rfl, fun sl x hx g => ?_⟩⟩
  have g : v.MayGet sl (x.take sl.len) := ⟨g.off, g.le, g.len, g.own, g.fro⟩
  -- what is known once the slice has been read
  generalize hv1 : ({ v with mode := Mode.loaded id sl (x.take sl.len), fro := v.fro.updS sl (x.take sl.len),
                             own := v.own.updS sl x } : View) = v1
  have hm1 : v1.mode = .loaded id sl (x.take sl.len) := by subst hv1; rfl
  have ht1 : v1.trace = v.trace := by subst hv1; rfl
  have hf1 : v1.fro = v.fro.updS sl (x.take sl.len) := by subst hv1; rfl
  have ho1 : v1.own = v.own.updS sl x := by subst hv1; rfl
  have g1 : Grows v.mem v1.mem := by
    intro a y hy
    by_cases hc : sl.cap = 0
    · refine ⟨y, ?_, List.prefix_rfl⟩
      unfold View.mem at hy ⊢
      rw [hf1, ho1, Memory.updS_nil hc, Memory.updS_nil hc]; exact hy
    · by_cases e : a = sl.arr
      · subst e
        rw [View.mem_fro (g.own hc)] at hy
        refine ⟨x, View.mem_own ?_, (g.fro hc y hy).trans (List.take_prefix _ _)⟩
        rw [ho1, Memory.updS_mem hc, Memory.upd_self]
      · refine ⟨y, ?_, List.prefix_rfl⟩
        unfold View.mem at hy ⊢
        rw [hf1, ho1, Memory.updS_mem hc, Memory.updS_mem hc, Memory.upd_ne _ _ e, Memory.upd_ne _ _ e]; exact hy
  have hv' : Shows v1.mem value b := hv.grow g1
  -- the end: the new slice is stored and the lock is released
  have fin : ∀ (v2 : View) (new : Slice) (y : Bytes), v2.mode = .loaded id sl (x.take sl.len) → v2.trace = v.trace →
      Grows v.mem v2.mem → v2.MaySet sl new (x.take sl.len ++ b) y →
      (new.cap ≠ 0 → ∀ z, v.mem new.arr = some z → z <+: x.take sl.len ++ b) →
      SSafe J (SM.mapSet id new (.unlock (pure ())) >>= f) v2 P := by
    intro v2 new y hm ht hg hs hp
    refine ⟨sl, x.take sl.len, b, y, hm, hs, by rw [ht]; exact hJ, rfl, ?_⟩
    refine t _ rfl (by dsimp only; rw [ht]) ?_
    intro a z hz
    obtain ⟨z', hz', hpz⟩ := hg a z hz
    by_cases hc : new.cap = 0
    · refine ⟨z', ?_, hpz⟩
      unfold View.mem at hz' ⊢
      dsimp only
      rw [Memory.updS_nil hc, Memory.delS_nil hc]; exact hz'
    · by_cases e : a = new.arr
      · subst e
        refine ⟨x.take sl.len ++ b, ?_, hp hc z hz⟩
        unfold View.mem
        dsimp only
        rw [Memory.updS_mem hc, Memory.delS_mem hc, Memory.upd_self]
        dsimp only
        rw [if_pos rfl]
      · refine ⟨z', ?_, hpz⟩
        unfold View.mem at hz' ⊢
        dsimp only
        rw [Memory.updS_mem hc, Memory.delS_mem hc, Memory.upd_ne _ _ e]
        dsimp only
        rw [if_neg e]; exact hz'
  have hbl : b.length = value.len := hv.len
  have htl : (x.take sl.len).length = sl.len := g.len
  show SSafe J ((appendSliceS sl value >>= fun new => SM.mapSet id new (.unlock (pure ()))) >>= f) v1 P
  rw [SM.bind_assoc]
  unfold appendSliceS
  by_cases hcap : sl.len + value.len ≤ sl.cap
  · rw [if_pos hcap]
    by_cases hc : sl.cap = 0
    · -- nothing at all
      have hl0 : value.len = 0 := by omega
      have hs0 : sl.len = 0 := by omega
      rw [hl0]
      refine fin v1 _ [] hm1 ht1 g1 ⟨g.off, by dsimp only; omega, by simp; omega, fun h => (h hc).elim, fun h => (h hc).elim,
        fun h => (h hc).elim, fun h => (h hc).elim⟩ fun h => (h hc).elim
    · have hown : v1.own sl.arr = some x := by rw [ho1, Memory.updS_mem hc, Memory.upd_self]
      have hfro : v1.fro sl.arr = some (x.take sl.len) := by rw [hf1, Memory.updS_mem hc, Memory.upd_self]
      rw [← hbl]
      refine SSafe.bind ?_
      refine SSafe.copy (dOff := sl.off + sl.len) b 0 v1 x hown (by rw [g.off]; omega) ?_ ?_ ?_ ?_
      · intro z hz
        rw [hfro] at hz; cases hz
        rw [htl, g.off]; omega
      · intro hbn
        by_cases e : value.arr = sl.arr
        · refine Or.inr ?_
          -- the value is part of what was stored before
          have hb0 : b.length ≠ 0 := by simpa using hbn
          have := hv.2.2 (b.length - 1) (by omega)
          rw [List.getElem?_eq_getElem (by omega)] at this
          unfold Memory.byte at this
          rw [e, View.mem_fro (g.own hc)] at this
          cases hz : v.fro sl.arr with
          | none => rw [hz] at this; cases this
          | some z =>
            rw [hz] at this
            have hlt : value.off + (b.length - 1) < z.length := (List.getElem?_eq_some_iff.mp this).1
            have := (g.fro hc z hz).length_le
            rw [htl] at this
            rw [g.off]; omega
        · exact Or.inl e
      · intro j hj
        have := hv'.2.2 j (by omega)
        rw [Nat.add_zero]; exact this
      · have hx2 : sl.len + b.length ≤ x.length := by omega
        rw [g.off, Nat.zero_add, Nat.add_zero]
        refine fin _ _ (overwrite x sl.len b) hm1 ht1 ?_ ⟨rfl, ?_, ?_, fun _ => Memory.upd_self .., fun _ => ?_, fun _ => ?_,
          fun _ => Or.inl ⟨rfl, hc⟩⟩ ?_
        · intro a z hz
          rw [View.mem_upd]
          obtain ⟨z', hz', hp⟩ := g1 a z hz
          by_cases e : a = sl.arr
          · subst e
            refine ⟨_, Memory.upd_self .., ?_⟩
            rw [View.mem_fro (g.own hc)] at hz
            refine (g.fro hc z hz).trans ?_
            unfold overwrite
            rw [List.append_assoc]
            exact List.prefix_append _ _
          · rw [Memory.upd_ne _ _ e]; exact ⟨z', hz', hp⟩
        · dsimp only; omega
        · dsimp only; rw [List.length_append]; omega
        · rw [overwrite_length _ _ _ hx2, hx]
        · dsimp only
          rw [overwrite_take_left _ _ _ hx2]
        · intro _ z hz
          dsimp only at hz
          rw [View.mem_fro (g.own hc)] at hz
          exact (g.fro hc z hz).trans (List.prefix_append _ _)
  · rw [if_neg hcap]
    intro a y ha hy
    have hva : v.mem a = none := by
      cases hz : v.mem a with
      | none => rfl
      | some z => obtain ⟨z', hz', -⟩ := g1 a z hz; rw [hz'] at ha; cases ha
    have hslb : ∀ j < (x.take sl.len).length, v1.mem.byte sl.arr (sl.off + 0 + j) = (x.take sl.len)[j]? := by
      intro j hj
      have hc : sl.cap ≠ 0 := by have := g.le; omega
      unfold Memory.byte
      rw [View.mem_own (v := v1) (x := x) (by rw [ho1, Memory.updS_mem hc, Memory.upd_self]), g.off, List.getElem?_take,
        if_pos (by omega)]
      simp
    have hane : ∀ {s : Slice} {c : Bytes}, Shows v1.mem s c → c ≠ [] → s.arr ≠ a := by
      intro s c hs hcn e
      have h0 : c.length ≠ 0 := by simpa using hcn
      have := hs.2.2 0 (by have := hs.len; omega)
      unfold Memory.byte at this
      rw [e, ha, List.getElem?_eq_getElem (by omega)] at this
      cases this
    have hsl : Shows v1.mem sl (x.take sl.len) := ⟨g.le, g.len, fun i hi => by
      have := hslb i (by omega); rw [Nat.add_zero] at this; exact this⟩
    show SSafe J ((copyS a 0 sl.arr sl.off sl.len 0 >>= fun _ => copyS a sl.len value.arr value.off value.len 0 >>= fun _ =>
      pure ⟨a, 0, sl.len + value.len, y.length⟩) >>= fun new => SM.mapSet id new (.unlock (pure ())) >>= f) _ P
    refine SSafe.bind ?_
    have hcp : copyS a 0 sl.arr sl.off sl.len 0 = copyS a 0 sl.arr sl.off (x.take sl.len).length 0 := by rw [htl]
    rw [hcp]
    refine SSafe.copy (x.take sl.len) 0 _ y (Memory.upd_self ..) (by omega) ?_ (fun h => Or.inl (hane hsl h)) ?_ ?_
    · intro z hz
      dsimp only at hz
      rw [(View.mem_none ha).2] at hz; cases hz
    · intro j hj
      rw [← hslb j hj, View.mem_upd]
      unfold Memory.byte
      rw [Memory.upd_ne _ _ (hane hsl (by intro h; rw [h] at hj; simp at hj))]
    · dsimp only
      rw [Memory.upd_upd, ← hbl]
      refine SSafe.copy b 0 _ _ (Memory.upd_self ..) ?_ ?_ (fun h => Or.inl (hane hv' h)) ?_ ?_
      · rw [overwrite_length _ _ _ (by omega)]; omega
      · intro z hz
        dsimp only at hz
        rw [(View.mem_none ha).2] at hz; cases hz
      · intro j hj
        rw [View.mem_upd v1, ← hv'.2.2 j (by omega), show value.off + 0 + j = value.off + j from rfl]
        unfold Memory.byte
        rw [Memory.upd_ne _ _ (hane hv' (by intro h; rw [h] at hj; simp at hj))]
      · dsimp only
        rw [Memory.upd_upd, Nat.add_zero, Nat.add_zero]
        have e1 : (overwrite y 0 (x.take sl.len)).take sl.len = x.take sl.len := by
          have := overwrite_take_left y (x.take sl.len) 0 (by omega)
          rw [Nat.zero_add, htl] at this
          simpa using this
        have hl1 : (overwrite y 0 (x.take sl.len)).length = y.length := overwrite_length _ _ _ (by omega)
        refine fin _ _ (overwrite (overwrite y 0 (x.take sl.len)) sl.len b) hm1 ht1 ?_ ⟨rfl, by dsimp only; omega, ?_,
          fun _ => Memory.upd_self .., fun _ => ?_, fun _ => ?_, fun _ => Or.inr (View.mem_none ha).2⟩ ?_
        · intro c z hz
          rw [View.mem_upd]
          by_cases e : c = a
          · subst e; rw [hva] at hz; cases hz
          · rw [Memory.upd_ne _ _ e]; exact g1 c z hz
        · dsimp only; rw [List.length_append]; omega
        · dsimp only
          rw [overwrite_length _ _ _ (by omega), hl1]
        · dsimp only
          rw [overwrite_take_left _ _ _ (by omega), e1]
        · intro _ z hz
          dsimp only at hz
          rw [hva] at hz; cases hz

end
end Migp
