import Verif.Lemmas.Conc
/-! # What a `Get` sees in a linearisable history -/
set_option linter.unusedSimpArgs false
namespace Migp.Conc
open Migp Spec Props

def linOp : LEv → Option KVOp
  | .lin _ op _ => some op
  | _ => none

def invOp : LEv → Option KVOp
  | .inv _ op => some op
  | _ => none

def isRet : LEv → Bool
  | .ret _ _ => true
  | _ => false

abbrev proj (t : Nat) (l : List LEv) : List LEv := l.filter (fun e => e.thread = t)

theorem threadOK_suffix {l : List LEv} (h : ThreadOK l) :
    ∀ x t op y, l = x ++ .inv t op :: y → ThreadOK (.inv t op :: y) := by
  induction h with
  | none => intro x t op y e; simp at e
  | called t' op' =>
    intro x t op y e
    cases x with
    | nil => rw [List.nil_append] at e; rw [← e]; exact .called _ _
    | cons a x => injection e with _ e; simp at e
  | effective t' op' r =>
    intro x t op y e
    match x, e with
    | [], e => rw [List.nil_append] at e; rw [← e]; exact .effective _ _ _
    | [a], e => simp at e
    | a :: b :: x, e => simp at e
  | returned t' op' r rest hr ih =>
    intro x t op y e
    match x, e with
    | [], e => rw [List.nil_append] at e; rw [← e]; exact .returned _ _ _ _ hr
    | [a], e => simp at e
    | [a, b], e => simp at e
    | a :: b :: c :: x, e =>
      refine ih x t op y ?_
      simp only [List.cons_append, List.cons.injEq] at e
      exact e.2.2.2

/-- Between a call and the next return of the same goroutine there is just the instant of the call. -/
theorem threadOK_between {t t' : Nat} {op : KVOp} {r : Bytes} {p z : List LEv}
    (h : ThreadOK (.inv t op :: (p ++ .ret t' r :: z))) (hp : ∀ e ∈ p, isRet e = false) :
    p = [.lin t op r] := by
  generalize hl : LEv.inv t op :: (p ++ .ret t' r :: z) = l at h
  cases h with
  | none => cases hl
  | called t' op' => injection hl with _ h; simp at h
  | effective t' op' r =>
    injection hl with _ h
    match p, h, hp with
    | [], h, _ => simp at h
    | a :: p, h, _ => simp at h
  | returned t' op' r' rest _ =>
    injection hl with e1 h
    injection e1 with e1 e2
    subst e1 e2
    match p, h, hp with
    | [], h, _ => simp at h
    | [a], h, _ =>
      simp only [List.cons_append, List.nil_append, List.cons.injEq] at h
      obtain ⟨rfl, h, -⟩ := h
      injection h with _ h
      subst h
      rfl
    | a :: b :: p, h, hp =>
      simp only [List.cons_append, List.cons.injEq] at h
      obtain ⟨-, rfl, -⟩ := h
      have := hp _ (List.mem_cons_of_mem _ (List.mem_cons_self))
      cases this

/-- In every prefix, the operations that took effect are among those called, and comprise those that
have returned. -/
theorem threadOK_prefix {l : List LEv} (h : ThreadOK l) :
    ∀ x, x <+: l → x.filterMap linOp <+: x.filterMap invOp ∧
      (x.filterMap invOp).take ((x.filter isRet).length) <+: x.filterMap linOp := by
  induction h with
  | none => intro x hx; have := List.prefix_nil.mp hx; subst this; simp
  | called t op =>
    intro x hx
    rcases List.prefix_cons_iff.mp hx with rfl | ⟨y, rfl, hy⟩
    · simp
    · have := List.prefix_nil.mp hy; subst this
      simp [List.filterMap_cons, linOp, invOp, isRet]
  | effective t op r =>
    intro x hx
    rcases List.prefix_cons_iff.mp hx with rfl | ⟨y, rfl, hy⟩
    · simp
    · rcases List.prefix_cons_iff.mp hy with rfl | ⟨y2, rfl, hy2⟩
      · simp [List.filterMap_cons, linOp, invOp, isRet]
      · have := List.prefix_nil.mp hy2; subst this
        simp [List.filterMap_cons, linOp, invOp, isRet]
  | returned t op r rest _ ih =>
    intro x hx
    rcases List.prefix_cons_iff.mp hx with rfl | ⟨y, rfl, hy⟩
    · simp
    · rcases List.prefix_cons_iff.mp hy with rfl | ⟨y2, rfl, hy2⟩
      · simp [List.filterMap_cons, linOp, invOp, isRet]
      · rcases List.prefix_cons_iff.mp hy2 with rfl | ⟨y3, rfl, hy3⟩
        · simp [List.filterMap_cons, linOp, invOp, isRet]
        · obtain ⟨h1, h2⟩ := ih y3 hy3
          have hr : (List.filter isRet (LEv.inv t op :: .lin t op r :: .ret t r :: y3)).length =
              (List.filter isRet y3).length + 1 := by
            simp [List.filter_cons, isRet]
          rw [hr]
          simp only [List.filterMap_cons, linOp, invOp, List.take_succ_cons, List.cons_prefix_cons, true_and]
          exact ⟨h1, h2⟩

theorem proj_cons (t : Nat) (e : LEv) (l : List LEv) :
    proj t (e :: l) = if e.thread = t then e :: proj t l else proj t l := by
  unfold proj
  rw [List.filter_cons]
  by_cases h : e.thread = t <;> simp [h]

theorem invoked_erase (t : Nat) (l : List LEv) :
    invoked t (l.filterMap LEv.erase) = (proj t l).filterMap invOp := by
  induction l with
  | nil => rfl
  | cons e l ih =>
    rw [proj_cons]
    generalize proj t l = p at ih ⊢
    unfold invoked at ih ⊢
    cases e with
    | inv t' op =>
      by_cases h : t' = t <;> simp [LEv.erase, LEv.thread, List.filterMap_cons, h, invOp, ih]
    | lin t' op r =>
      by_cases h : t' = t <;> simp [LEv.erase, LEv.thread, List.filterMap_cons, h, invOp, ih]
    | ret t' r =>
      by_cases h : t' = t <;> simp [LEv.erase, LEv.thread, List.filterMap_cons, h, invOp, ih]

theorem numReturned_erase (t : Nat) (l : List LEv) :
    numReturned t (l.filterMap LEv.erase) = ((proj t l).filter isRet).length := by
  induction l with
  | nil => rfl
  | cons e l ih =>
    rw [proj_cons]
    generalize proj t l = p at ih ⊢
    unfold numReturned at ih ⊢
    cases e with
    | inv t' op =>
      by_cases h : t' = t <;> simp [LEv.erase, LEv.thread, List.filterMap_cons, List.filter_cons, h, isRet, ih]
    | lin t' op r =>
      by_cases h : t' = t <;> simp [LEv.erase, LEv.thread, List.filterMap_cons, List.filter_cons, h, isRet, ih]
    | ret t' r =>
      by_cases h : t' = t <;> simp [LEv.erase, LEv.thread, List.filterMap_cons, List.filter_cons, h, isRet, ih]

/-- Appends to a key that took effect, with their goroutine. -/
def linAppend (k : GoString) : LEv → Option (Nat × Bytes)
  | .lin t (.append k' v) _ => if k' = k then some (t, v) else none
  | _ => none

theorem appendedTo_lins (k : GoString) (l : List LEv) :
    appendedTo k ((l.filterMap LEv.effect).map Prod.fst) =
      ((l.filterMap (linAppend k)).map Prod.snd).flatten := by
  induction l with
  | nil => rfl
  | cons e l ih =>
    cases e with
    | inv t op => exact ih
    | ret t r => exact ih
    | lin t op r =>
      cases op with
      | put k' v => exact ih
      | get k' => exact ih
      | append k' v =>
        by_cases h : k' = k
        · subst h
          simp only [List.filterMap_cons, LEv.effect, linAppend, List.map_cons, appendedTo, if_true,
            List.flatten_cons, ih]
        · simp only [List.filterMap_cons, LEv.effect, linAppend, List.map_cons, appendedTo, if_neg h, ih]

theorem linAppend_thread (k : GoString) (t : Nat) (l : List LEv) :
    ((l.filterMap (linAppend k)).filter (fun x => x.1 = t)).map Prod.snd =
      appendsTo k ((proj t l).filterMap linOp) := by
  induction l with
  | nil => rfl
  | cons e l ih =>
    rw [proj_cons]
    generalize proj t l = p at ih ⊢
    unfold appendsTo at ih ⊢
    cases e with
    | inv t' op =>
      by_cases h : t' = t <;> simp [linAppend, linOp, LEv.thread, List.filterMap_cons, h, ih]
    | ret t' r =>
      by_cases h : t' = t <;> simp [linAppend, linOp, LEv.thread, List.filterMap_cons, h, ih]
    | lin t' op r =>
      cases op with
      | put k' v =>
        by_cases h : t' = t <;> simp [linAppend, linOp, LEv.thread, List.filterMap_cons, h, ih]
      | get k' =>
        by_cases h : t' = t <;> simp [linAppend, linOp, LEv.thread, List.filterMap_cons, h, ih]
      | append k' v =>
        by_cases hk : k' = k <;> by_cases h : t' = t <;>
          simp [linAppend, linOp, LEv.thread, List.filterMap_cons, h, hk, ih]

theorem filterMap_prefix {α β : Type} (f : α → Option β) {a b : List α} (h : a <+: b) :
    a.filterMap f <+: b.filterMap f := by
  obtain ⟨c, rfl⟩ := h
  rw [List.filterMap_append]
  exact List.prefix_append _ _

theorem filter_prefix {α : Type} (f : α → Bool) {a b : List α} (h : a <+: b) :
    a.filter f <+: b.filter f := by
  obtain ⟨c, rfl⟩ := h
  rw [List.filter_append]
  exact List.prefix_append _ _

theorem mem_effect {l : List LEv} (hth : ∀ t, ThreadOK (proj t l)) {op : KVOp} {r : Bytes}
    (h : (op, r) ∈ l.filterMap LEv.effect) : ∃ t, op ∈ invoked t (l.filterMap LEv.erase) := by
  obtain ⟨e, he, h⟩ := List.mem_filterMap.mp h
  cases e with
  | inv t op' => cases h
  | ret t r' => cases h
  | lin t op' r' =>
    injection h with h
    injection h with h1 h2
    subst h1 h2
    refine ⟨t, ?_⟩
    rw [invoked_erase]
    refine ((threadOK_prefix (hth t) _ List.prefix_rfl).1).subset ?_
    exact List.mem_filterMap.mpr ⟨_, List.mem_filter.mpr ⟨he, by simp [LEv.thread]⟩, rfl⟩

/-- What a completed `Get` returns. -/
theorem get_sees {l : List LEv} (hth : ∀ t, ThreadOK (proj t l)) (hl : Legal (l.filterMap LEv.effect))
    {a b c : List Ev} {t : Nat} {k : GoString} {r : Bytes}
    (he : l.filterMap LEv.erase = a ++ .inv t (.get k) :: (b ++ .ret t r :: c))
    (hb : ∀ r', Ev.ret t r' ∉ b)
    (hput : ∀ t v, KVOp.put k v ∉ invoked t (l.filterMap LEv.erase)) :
    ∃ es : List (Nat × Bytes), r = (es.map Prod.snd).flatten ∧ ∀ t',
      appendsTo k (completed t' a) <+: (es.filter (fun x => x.1 = t')).map Prod.snd ∧
      (es.filter (fun x => x.1 = t')).map Prod.snd <+: appendsTo k (invoked t' (a ++ b)) := by
  obtain ⟨la, l', rfl, hla, he⟩ := List.filterMap_eq_append_iff.mp he
  obtain ⟨lx, e1, l'', rfl, hlx, he1, he⟩ := List.filterMap_eq_cons_iff.mp he
  obtain ⟨lb, l''', rfl, hlb, he⟩ := List.filterMap_eq_append_iff.mp he
  obtain ⟨ly, e2, lc, rfl, hly, he2, he⟩ := List.filterMap_eq_cons_iff.mp he
  have e1' : e1 = .inv t (.get k) := by
    cases e1 with
    | inv t' op => injection he1 with he1; injection he1 with h1 h2; rw [h1, h2]
    | lin t' op r => cases he1
    | ret t' r => injection he1 with he1; cases he1
  have e2' : e2 = .ret t r := by
    cases e2 with
    | inv t' op => injection he2 with he2; cases he2
    | lin t' op r => cases he2
    | ret t' r => injection he2 with he2; injection he2 with h1 h2; rw [h1, h2]
  subst e1' e2'
  have hlx' : lx.filterMap LEv.erase = [] := List.filterMap_eq_nil_iff.mpr hlx
  have hly' : ly.filterMap LEv.erase = [] := List.filterMap_eq_nil_iff.mpr hly
  -- regroup
  have hA : (la ++ lx).filterMap LEv.erase = a := by rw [List.filterMap_append, hla, hlx', List.append_nil]
  have hB : (lb ++ ly).filterMap LEv.erase = b := by rw [List.filterMap_append, hlb, hly', List.append_nil]
  have hl' : la ++ (lx ++ LEv.inv t (.get k) :: (lb ++ (ly ++ LEv.ret t r :: lc))) =
      (la ++ lx) ++ LEv.inv t (.get k) :: ((lb ++ ly) ++ LEv.ret t r :: lc) := by simp
  rw [hl'] at hth hl hput
  generalize la ++ lx = A at *
  generalize lb ++ ly = B at *

  -- the instant of the Get
  have hBt : proj t B = [.lin t (.get k) r] := by
    have h1 := hth t
    have h2 : proj t (A ++ LEv.inv t (.get k) :: (B ++ LEv.ret t r :: lc)) =
        proj t A ++ LEv.inv t (.get k) :: (proj t B ++ LEv.ret t r :: proj t lc) := by
      simp [proj, LEv.thread]
    rw [h2] at h1
    refine threadOK_between (threadOK_suffix h1 _ _ _ _ rfl) ?_
    intro e he
    obtain ⟨hmB, het⟩ := List.mem_filter.mp he
    cases e with
    | inv t' op => rfl
    | lin t' op r => rfl
    | ret t' r' =>
      have : t' = t := of_decide_eq_true het
      subst this
      refine absurd ?_ (hb r')
      rw [← hB]
      exact List.mem_filterMap.mpr ⟨LEv.ret t' r', hmB, rfl⟩
  have hmem : LEv.lin t (.get k) r ∈ B := by
    have : LEv.lin t (.get k) r ∈ proj t B := by rw [hBt]; simp
    exact (List.mem_filter.mp this).1
  obtain ⟨B1, B2, rfl⟩ := List.append_of_mem hmem
  -- what it returns
  have hH : Holds k (((A ++ LEv.inv t (.get k) :: B1).filterMap LEv.effect).map Prod.fst) r := by
    refine hl _ (.get k) r (((B2 ++ LEv.ret t r :: lc)).filterMap LEv.effect) ?_
    simp [List.filterMap_append, List.filterMap_cons, LEv.effect]
  have hno : NoPut k (((A ++ LEv.inv t (.get k) :: B1).filterMap LEv.effect).map Prod.fst) := by
    rintro k' v hm rfl
    obtain ⟨⟨op, r'⟩, hm, rfl⟩ := List.mem_map.mp hm
    obtain ⟨t', ht'⟩ := mem_effect hth (op := .put k' v) (r := r') (by
      have : A ++ LEv.inv t (.get k') :: ((B1 ++ LEv.lin t (.get k') r :: B2) ++ LEv.ret t r :: lc) =
        (A ++ LEv.inv t (.get k') :: B1) ++ (LEv.lin t (.get k') r :: (B2 ++ LEv.ret t r :: lc)) := by simp
      rw [this, List.filterMap_append]
      exact List.mem_append_left _ hm)
    exact hput t' v ht'
  have hr : r = appendedTo k (((A ++ LEv.inv t (.get k) :: B1).filterMap LEv.effect).map Prod.fst) := by
    generalize ((A ++ LEv.inv t (.get k) :: B1).filterMap LEv.effect).map Prod.fst = ops at hH hno
    cases hH with
    | onlyAppends _ _ => rfl
    | lastPut before after v h => exact absurd rfl (hno k v (by simp))
  refine ⟨(A ++ LEv.inv t (.get k) :: B1).filterMap (linAppend k), by rw [← appendedTo_lins]; exact hr,
    fun t' => ?_⟩
  rw [linAppend_thread]
  have hpre := threadOK_prefix (hth t')
  have pA : A <+: A ++ LEv.inv t (.get k) :: B1 := List.prefix_append _ _
  have pP : A ++ LEv.inv t (.get k) :: B1 <+: A ++ LEv.inv t (.get k) :: (B1 ++ LEv.lin t (.get k) r :: B2) := by
    refine ⟨LEv.lin t (.get k) r :: B2, by simp⟩
  have pL : A ++ LEv.inv t (.get k) :: (B1 ++ LEv.lin t (.get k) r :: B2) <+:
      A ++ LEv.inv t (.get k) :: ((B1 ++ LEv.lin t (.get k) r :: B2) ++ LEv.ret t r :: lc) :=
    ⟨LEv.ret t r :: lc, by simp⟩
  constructor
  · refine filterMap_prefix _ ?_
    unfold completed
    rw [← hA, invoked_erase, numReturned_erase]
    exact ((hpre _ (filter_prefix _ (pA.trans (pP.trans pL)))).2).trans
      (filterMap_prefix _ (filter_prefix _ pA))
  · have h1 := (hpre _ (filter_prefix _ (pP.trans pL))).1
    have h2 := filterMap_prefix (α := LEv) invOp (filter_prefix (fun e : LEv => decide (e.thread = t')) pP)
    have h3 : appendsTo k (invoked t' (a ++ b)) = appendsTo k ((proj t' (A ++ LEv.inv t (.get k) ::
        (B1 ++ LEv.lin t (.get k) r :: B2))).filterMap invOp) := by
      rw [← invoked_erase]
      rw [List.filterMap_append, hA, List.filterMap_cons]
      simp only [LEv.erase]
      rw [hB]
      unfold invoked appendsTo
      simp only [List.filterMap_append, List.filterMap_cons]
      by_cases h : t = t' <;> simp [h]
    rw [h3]
    exact filterMap_prefix _ (h1.trans h2)

end Migp.Conc
