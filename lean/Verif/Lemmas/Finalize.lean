import Verif.Lemmas.Encryptor
import Verif.Model.FinalizeMachine
/-! # Lemmas on the loop of `Finalize` -/
namespace Migp

variable (E : Ext) (enc : BucketEncryptor) (secret : Bytes)

/-- Fewer than 25 bytes left: the loop ends. -/
theorem finalizeLoop_end (contents : Bytes) (offset : Nat) (h : contents.length < offset + 25) :
    finalizeLoop E enc secret contents offset = .ret NotInBreach none none := by
  rw [finalizeLoop]
  rw [dif_pos (by exact h)]

/-- One iteration on a header in its fields. -/
theorem finalizeLoop_step (pre tag : Bytes) (f : UInt8) (len : UInt32) (rest : Bytes)
    (ht : tag.length = 20) :
    finalizeLoop E enc secret (pre ++ (tag ++ ([f] ++ (be32 len ++ rest)))) pre.length =
      (if rest.length < len.toNat then .ret NotInBreach none (some .bucketParse)
       else if Spec.keyTag E.sha256 secret = tag then
        (match enc.decryptBody E secret (rest.take len.toNat) with
          | .panic p => .panic p
          | .err e => .ret NotInBreach none (some e)
          | .ok m => .ret (MetadataType.toBreachStatus (f ^^^ flagPad E secret)) (some m) none)
       else finalizeLoop E enc secret (pre ++ (tag ++ ([f] ++ (be32 len ++ rest))))
        (pre.length + 25 + len.toNat)) := by
  set C := pre ++ (tag ++ ([f] ++ (be32 len ++ rest))) with hC
  have hlen : C.length = pre.length + 25 + rest.length := by
    simp [hC, ht]; omega
  conv_lhs => rw [finalizeLoop]
  rw [dif_neg (by simp only [HeaderSize, CtxtKeyCheckSize]; omega)]
  have hs : sliceFrom C pre.length = .ok (tag ++ ([f] ++ (be32 len ++ rest))) := by
    unfold sliceFrom
    rw [if_pos (by omega), hC, List.drop_left]
  rw [hs]
  simp only [Res.ok_bind]
  rw [decryptHeader_parts E enc secret tag f len rest ht]
  dsimp only
  have h25 : pre.length + HeaderSize = pre.length + 25 := rfl
  rw [h25]
  by_cases hp : rest.length < len.toNat
  · rw [if_pos (by omega), if_pos hp]
  · rw [if_neg (by omega), if_neg hp]
    by_cases hk : Spec.keyTag E.sha256 secret = tag
    · rw [if_pos hk, if_pos (by simpa using hk)]
      have hsl : slice C (pre.length + 25) (pre.length + 25 + len.toNat) = .ok (rest.take len.toNat) := by
        unfold slice
        rw [if_pos (by omega)]
        have e : C = (pre ++ (tag ++ ([f] ++ be32 len))) ++ rest := by simp [hC]
        have hl : (pre ++ (tag ++ ([f] ++ be32 len))).length = pre.length + 25 := by
          simp [ht]
        rw [e, List.take_append, List.take_of_length_le (by omega), List.drop_left' hl, hl]
        congr 2
        omega
      rw [hsl]
      simp only [Res.ok_bind]
      cases enc.decryptBody E secret (rest.take len.toNat) <;> rfl
    · rw [if_neg hk, if_neg (by simpa using hk)]

/-- The loop only looks at the bytes from the offset on. -/
theorem finalizeLoop_shift (pre rest : Bytes) (k : Nat) :
    finalizeLoop E enc secret (pre ++ rest) (pre.length + k) = finalizeLoop E enc secret rest k := by
  induction hn : rest.length - k using Nat.strongRecOn generalizing k with
  | _ n ih =>
    by_cases hend : rest.length < k + 25
    · rw [finalizeLoop_end E enc secret rest k hend,
        finalizeLoop_end E enc secret _ _ (by rw [List.length_append]; omega)]
    · obtain ⟨tag, f, len, r, ht, hr⟩ := split_header (rest.drop k) (by rw [List.length_drop]; omega)
      have e : rest = rest.take k ++ (tag ++ ([f] ++ (be32 len ++ r))) := by
        rw [← hr, List.take_append_drop]
      have hk : (rest.take k).length = k := by rw [List.length_take]; omega
      have h1 := finalizeLoop_step E enc secret (rest.take k) tag f len r ht
      have h2 := finalizeLoop_step E enc secret (pre ++ rest.take k) tag f len r ht
      rw [hk, ← e] at h1
      rw [List.append_assoc, ← e, List.length_append, hk] at h2
      rw [h1, h2]
      split
      · rfl
      · split
        · rfl
        · have : pre.length + k + 25 + len.toNat = pre.length + (k + 25 + len.toNat) := by omega
          rw [this]
          exact ih _ (by omega) _ rfl

/-- One iteration from the start. -/
theorem finalizeLoop_cons (tag : Bytes) (f : UInt8) (len : UInt32) (body rest : Bytes)
    (ht : tag.length = 20) (hb : body.length = len.toNat) :
    finalizeLoop E enc secret (tag ++ ([f] ++ (be32 len ++ (body ++ rest)))) 0 =
      (if Spec.keyTag E.sha256 secret = tag then
        (match enc.decryptBody E secret body with
          | .panic p => .panic p
          | .err e => .ret NotInBreach none (some e)
          | .ok m => .ret (MetadataType.toBreachStatus (f ^^^ flagPad E secret)) (some m) none)
       else finalizeLoop E enc secret rest 0) := by
  have h := finalizeLoop_step E enc secret [] tag f len (body ++ rest) ht
  simp only [List.nil_append, List.length_nil] at h
  rw [h, if_neg (by rw [List.length_append]; omega), List.take_left' hb]
  split
  · rfl
  · have e : tag ++ ([f] ++ (be32 len ++ (body ++ rest))) =
        (tag ++ ([f] ++ (be32 len ++ body))) ++ rest := by simp
    have hl : (tag ++ ([f] ++ (be32 len ++ body))).length = 0 + 25 + len.toNat := by
      simp [ht, hb]; omega
    have e0 : 0 + 25 + len.toNat = (tag ++ ([f] ++ (be32 len ++ body))).length + 0 := by omega
    simp only [List.cons_append, List.nil_append] at e hl e0 ⊢
    rw [e, e0, finalizeLoop_shift]

end Migp
