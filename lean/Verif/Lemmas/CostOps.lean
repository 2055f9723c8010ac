import Verif.Lemmas.Cost
import Verif.Lemmas.History
/-!
# Which calls the functions make
-/
namespace Migp
open Json Bufio Http

/-- Without costly calls. -/
theorem Tr.free_bind {α β : Type} {x : Tr α} {f : α → Tr β} (h : x.ops = []) (hf : ∀ a, (f a).ops = []) : (x >>= f).ops = [] := by
  cases hx : x.out with
  | ok a => rw [Tr.ops_bind_ok hx, h, hf]; rfl
  | err e => rw [Tr.ops_bind_err hx, h]
  | panic p => rw [Tr.ops_bind_panic hx, h]

variable (E : Ext)

theorem derivePadT_ops {β : Type} (secret salt : Bytes) (n : Nat) (f : Bytes → Tr β) (hf : ∀ a, (f a).ops = []) :
    (derivePadT E secret salt n >>= f).ops = [.pad n] := by
  cases hx : (derivePadT E secret salt n).out with
  | ok a => rw [Tr.ops_bind_ok hx, hf]; rfl
  | err e => rw [Tr.ops_bind_err hx]; rfl
  | panic p => rw [Tr.ops_bind_panic hx]; rfl

theorem decryptHeaderT_ops (enc : BucketEncryptor) (secret c : Bytes) (h : 25 ≤ c.length) :
    (enc.decryptHeaderT E secret c).ops = [.pad 21] := by
  cases enc
  unfold BucketEncryptor.decryptHeaderT
  dsimp only
  rw [if_neg (by simp only [HeaderSize, CtxtKeyCheckSize]; omega)]
  refine derivePadT_ops E _ _ _ _ fun pad => ?_
  refine Tr.free_bind rfl fun _ => Tr.free_bind rfl fun _ => Tr.free_bind rfl fun _ => Tr.free_bind rfl fun _ =>
    Tr.free_bind rfl fun _ => Tr.free_bind rfl fun _ => rfl

theorem decryptBodyT_ops (enc : BucketEncryptor) (secret c : Bytes) : (enc.decryptBodyT E secret c).ops = [.pad c.length] := by
  cases enc
  unfold BucketEncryptor.decryptBodyT
  exact derivePadT_ops E _ _ _ _ fun _ => rfl

theorem encryptT_ops (enc : BucketEncryptor) (secret : Bytes) (flag : MetadataType) (body : Bytes) :
    (enc.encryptT E secret flag body).ops = [.pad 21, .pad body.length] := by
  cases enc
  unfold BucketEncryptor.encryptT
  have h1 : (derivePadT E secret DerivePadHeaderSalt (CtxtKeyCheckSize + 1)).out =
      .ok (Spec.hkdf E.sha256 secret DerivePadHeaderSalt [] 21) := derivePad_ok E secret DerivePadHeaderSalt 21 (by decide)
  rw [Tr.ops_bind_ok h1]
  have h2 : (liftM (setIndex (makeBytes (CtxtKeyCheckSize + 1)) CtxtKeyCheckSize flag) : Tr Bytes).out =
      .ok ((makeBytes (CtxtKeyCheckSize + 1)).set CtxtKeyCheckSize flag) := by
    rw [Tr.out_liftT]
    unfold setIndex
    rw [if_pos (by decide)]
  rw [Tr.ops_bind_ok h2]
  have h3 : (liftM (xorBytes ((makeBytes (CtxtKeyCheckSize + 1)).set CtxtKeyCheckSize flag)
      (Spec.hkdf E.sha256 secret DerivePadHeaderSalt [] 21)) : Tr Bytes).out = .ok _ :=
    xorBytes_ok _ _ (by rw [hkdf_length E _ _ _ (by decide), List.length_set]; rfl)
  rw [Tr.ops_bind_ok h3, derivePadT_ops]
  · rfl
  · intro a
    exact Tr.free_bind rfl fun _ => Tr.free_bind rfl fun _ => Tr.free_bind rfl fun _ => rfl

/-- The calls of one iteration. -/
theorem finalizeLoopT_step (enc : BucketEncryptor) (secret pre tag : Bytes) (f : UInt8) (len : UInt32) (rest : Bytes)
    (ht : tag.length = 20) :
    (finalizeLoopT E enc secret (pre ++ (tag ++ ([f] ++ (be32 len ++ rest)))) pre.length).1 =
      (if rest.length < len.toNat then [.pad 21]
       else if Spec.keyTag E.sha256 secret = tag then [.pad 21, .pad len.toNat]
       else .pad 21 :: (finalizeLoopT E enc secret (pre ++ (tag ++ ([f] ++ (be32 len ++ rest))))
        (pre.length + 25 + len.toNat)).1) := by
  generalize hC : pre ++ (tag ++ ([f] ++ (be32 len ++ rest))) = C
  have hlen : C.length = pre.length + 25 + rest.length := by
    simp [← hC, ht]; omega
  conv_lhs => rw [finalizeLoopT]
  rw [dif_neg (by simp only [HeaderSize, CtxtKeyCheckSize]; omega)]
  have hs : sliceFrom C pre.length = .ok (tag ++ ([f] ++ (be32 len ++ rest))) := by
    unfold sliceFrom
    rw [if_pos (by omega), ← hC, List.drop_left]
  have hops : ((sliceFrom C pre.length : Tr Bytes) >>= (enc.decryptHeaderT E secret ·)).ops = [.pad 21] := by
    rw [Tr.ops_bind_ok (a := tag ++ ([f] ++ (be32 len ++ rest))) hs, decryptHeaderT_ops E enc secret _ (by simp [ht]; omega)]
    rfl
  have hout : ((sliceFrom C pre.length : Tr Bytes) >>= (enc.decryptHeaderT E secret ·)).out =
      .ok (decide (Spec.keyTag E.sha256 secret = tag), f ^^^ flagPad E secret, len.toNat) := by
    rw [Tr.out_bind, Tr.out_liftT, hs]
    simp only [Res.ok_bind]
    rw [decryptHeaderT_out, decryptHeader_parts E enc secret tag f len rest ht]
  dsimp only
  rw [hops, hout]
  dsimp only
  have h25 : pre.length + HeaderSize = pre.length + 25 := rfl
  rw [h25]
  by_cases hp : rest.length < len.toNat
  · rw [if_pos (by omega), if_pos hp]
  · rw [if_neg (by omega), if_neg hp]
    by_cases hk : Spec.keyTag E.sha256 secret = tag
    · rw [if_pos hk, if_pos (by simpa using hk)]
      have hsl : slice C (pre.length + 25) (pre.length + 25 + len.toNat) = .ok (rest.take len.toNat) := by
        unfold slice
        rw [if_pos (by omega)]
        have e : C = (pre ++ (tag ++ ([f] ++ be32 len))) ++ rest := by simp [← hC]
        have hl : (pre ++ (tag ++ ([f] ++ be32 len))).length = pre.length + 25 := by
          simp [ht]
        rw [e, List.take_append, List.take_of_length_le (by omega), List.drop_left' hl, hl]
        congr 2
        omega
      have hops2 : ((slice C (pre.length + 25) (pre.length + 25 + len.toNat) : Tr Bytes) >>=
          (enc.decryptBodyT E secret ·)).ops = [.pad len.toNat] := by
        rw [Tr.ops_bind_ok (a := rest.take len.toNat) hsl, decryptBodyT_ops, List.length_take, Nat.min_eq_left (by omega)]
        rfl
      rw [hops2]
      generalize ((slice C (pre.length + 25) (pre.length + 25 + len.toNat) : Tr Bytes) >>=
          (enc.decryptBodyT E secret ·)).out = o
      cases o <;> rfl
    · rw [if_neg hk, if_neg (by simpa using hk)]
      rfl

theorem finalizeLoopT_end (enc : BucketEncryptor) (secret contents : Bytes) (offset : Nat) (h : contents.length < offset + 25) :
    (finalizeLoopT E enc secret contents offset).1 = [] := by
  rw [finalizeLoopT, dif_pos (by exact h)]

theorem finalizeLoopT_shift (enc : BucketEncryptor) (secret pre rest : Bytes) (k : Nat) :
    (finalizeLoopT E enc secret (pre ++ rest) (pre.length + k)).1 = (finalizeLoopT E enc secret rest k).1 := by
  induction hn : rest.length - k using Nat.strongRecOn generalizing k with
  | _ n ih =>
    by_cases hend : rest.length < k + 25
    · rw [finalizeLoopT_end E enc secret rest k hend,
        finalizeLoopT_end E enc secret _ _ (by rw [List.length_append]; omega)]
    · obtain ⟨tag, f, len, r, ht, hr⟩ := split_header (rest.drop k) (by rw [List.length_drop]; omega)
      have e : rest = rest.take k ++ (tag ++ ([f] ++ (be32 len ++ r))) := by
        rw [← hr, List.take_append_drop]
      have hk : (rest.take k).length = k := by rw [List.length_take]; omega
      have h1 := finalizeLoopT_step E enc secret (rest.take k) tag f len r ht
      have h2 := finalizeLoopT_step E enc secret (pre ++ rest.take k) tag f len r ht
      rw [hk, ← e] at h1
      rw [List.append_assoc, ← e, List.length_append, hk] at h2
      rw [h1, h2]
      split
      · rfl
      · split
        · rfl
        · have : pre.length + k + 25 + len.toNat = pre.length + (k + 25 + len.toNat) := by omega
          rw [this, ih _ (by omega) _ rfl]

theorem finalizeLoopT_cons (enc : BucketEncryptor) (secret tag : Bytes) (f : UInt8) (len : UInt32) (body rest : Bytes)
    (ht : tag.length = 20) (hb : body.length = len.toNat) :
    (finalizeLoopT E enc secret (tag ++ ([f] ++ (be32 len ++ (body ++ rest)))) 0).1 =
      (if Spec.keyTag E.sha256 secret = tag then [.pad 21, .pad body.length]
       else .pad 21 :: (finalizeLoopT E enc secret rest 0).1) := by
  have h := finalizeLoopT_step E enc secret [] tag f len (body ++ rest) ht
  simp only [List.nil_append, List.length_nil] at h
  rw [h, if_neg (by rw [List.length_append]; omega), hb]
  split
  · rfl
  · have e : tag ++ ([f] ++ (be32 len ++ (body ++ rest))) =
        (tag ++ ([f] ++ (be32 len ++ body))) ++ rest := by simp
    have hl : (tag ++ ([f] ++ (be32 len ++ body))).length = 0 + 25 + len.toNat := by
      simp [ht, hb]; omega
    have e0 : 0 + 25 + len.toNat = (tag ++ ([f] ++ (be32 len ++ body))).length + 0 := by omega
    simp only [List.cons_append, List.nil_append] at e hl e0 ⊢
    rw [e, e0, finalizeLoopT_shift]

/-- The calls on a list of entries: a pad for each up to the first whose tag matches, and one for the body of that. -/
theorem finalizeLoopT_bucket (enc : BucketEncryptor) (secret : Bytes) (es : List Spec.RawEntry) (h : ∀ e ∈ es, e.WF) :
    (finalizeLoopT E enc secret (Spec.bucket es) 0).1 =
      (es.takeWhile fun e => decide (e.tag ≠ Spec.keyTag E.sha256 secret)).map (fun _ => .pad 21) ++
        match Spec.firstMatch E.sha256 secret es with
        | some e => [.pad 21, .pad e.body.length]
        | none => [] := by
  induction es with
  | nil => exact finalizeLoopT_end E enc secret [] 0 (by decide)
  | cons e es ih =>
    have hw := h e (List.mem_cons_self ..)
    have hb : e.body.length = (UInt32.ofNat e.body.length).toNat := by
      rw [UInt32.toNat_ofNat', Nat.mod_eq_of_lt hw.2]
    have e1 : Spec.bucket (e :: es) = e.tag ++ ([e.flag] ++ (be32 (UInt32.ofNat e.body.length) ++ (e.body ++ Spec.bucket es))) := by
      have : Spec.bucket (e :: es) = e.bytes ++ Spec.bucket es := by simp [Spec.bucket]
      rw [this, Props.rawEntry_bytes e hw]; simp
    rw [e1, finalizeLoopT_cons E enc secret e.tag e.flag _ e.body _ hw.1 hb]
    by_cases hk : e.tag = Spec.keyTag E.sha256 secret
    · rw [if_pos hk.symm, List.takeWhile_cons_of_neg (p := fun e : Spec.RawEntry => decide (e.tag ≠ Spec.keyTag E.sha256 secret)) (by simpa using hk)]
      simp [Spec.firstMatch, hk]
    · rw [if_neg (fun h => hk h.symm), List.takeWhile_cons_of_pos (p := fun e : Spec.RawEntry => decide (e.tag ≠ Spec.keyTag E.sha256 secret)) (by simpa using hk), ih (fun x hx => h x (List.mem_cons_of_mem _ hx))]
      simp [Spec.firstMatch, hk]

end Migp
