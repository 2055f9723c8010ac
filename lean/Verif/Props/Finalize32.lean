import Verif.Props.Finalize
/-!
# C23: exactly what happens on 32-bit platforms
-/
namespace Migp.Props
open Migp.Spec

variable (E : Ext)

theorem wrap32 (x : Int) (h0 : -2 ^ 31 ≤ x) (h1 : x < 2 ^ 31) : wrapInt 32 x = x := by
  unfold wrapInt
  apply Int.bmod_eq_of_le <;> omega

/-- A sum that is too large wraps around. -/
theorem wrap32_over (x : Int) (h0 : 2 ^ 31 ≤ x) (h1 : x < 2 ^ 32 + 2 ^ 31) : wrapInt 32 x = x - 2 ^ 32 := by
  unfold wrapInt Int.bmod
  push_cast
  split <;> omega

theorem wrap32_body (len : Nat) (h : len < 2 ^ 32) (o : Nat) (ho : o < 2 ^ 31) (_h : o + len < 2 ^ 32 + 2 ^ 31) :
    wrapInt 32 ((o : Int) + wrapInt 32 len) = wrapInt 32 ((o + len : Nat) : Int) := by
  unfold wrapInt
  rw [Int.add_bmod_bmod]
  push_cast
  rfl

/-- C23: what one iteration does on a 32-bit platform at an entry that ends at `e` according to its length field: if
that is within the bucket, what it does on 64 bits; if it is not, but less than 2^31, it reports the error; and if it is
larger, the sum wraps around, the check is passed, and the loop panics if the tag is right and otherwise goes on at
`e - 2^32`, which is before the end of this header. -/
theorem C23_step (enc : BucketEncryptor) (secret pre tag : Bytes) (f : UInt8) (len : UInt32) (rest : Bytes)
    (ht : tag.length = 20) (hc : (pre ++ (tag ++ ([f] ++ (be32 len ++ rest)))).length < 2 ^ 31) :
    let contents := pre ++ (tag ++ ([f] ++ (be32 len ++ rest)))
    let e := pre.length + 25 + len.toNat
    finalizeStep 32 E enc secret contents pre.length =
      if e ≤ contents.length then
        if tag = keyTag E.sha256 secret then
          .done (match enc.decryptBody E secret (rest.take len.toNat) with
            | .panic p => .panic p
            | .err e => .ret NotInBreach none (some e)
            | .ok m => .ret (MetadataType.toBreachStatus (f ^^^ flagPad E secret)) (some m) none)
        else .next e
      else if e < 2 ^ 31 then .done (.ret NotInBreach none (some .bucketParse))
      else if tag = keyTag E.sha256 secret then .done (.panic .bounds)
      else .next ((e : Int) - 2 ^ 32) := by
  intro contents e
  have hH : ((HeaderSize : Nat) : Int) = 25 := rfl
  have hlen : contents.length = pre.length + 25 + rest.length := by simp [contents, ht]; omega
  have hl32 : len.toNat < 2 ^ 32 := len.toNat_lt
  have hc : contents.length < 2 ^ 31 := hc
  have h1 : sliceInt contents pre.length contents.length = .ok (tag ++ ([f] ++ (be32 len ++ rest))) := by
    unfold sliceInt
    rw [if_pos (by omega), Int.toNat_natCast, Int.toNat_natCast, List.take_length]
    exact congrArg Res.ok (List.drop_left' rfl)
  have w1 : wrapInt 32 ((pre.length : Int) + (HeaderSize : Nat)) = ((pre.length + 25 : Nat) : Int) := by
    rw [hH, wrap32 _ (by omega) (by omega)]; omega
  have w3 : wrapInt 32 (((pre.length + 25 : Nat) : Int) + wrapInt 32 (len.toNat : Nat)) = wrapInt 32 (e : Nat) :=
    wrap32_body _ hl32 _ (by omega) (by omega)
  unfold finalizeStep
  rw [w1, if_neg (by omega), h1]
  simp only [Res.ok_bind]
  rw [decryptHeader_parts E enc secret tag f len rest ht]
  dsimp only
  rw [w3]
  have hk : ∀ (P : Prop) [Decidable P] (x y : Step), (if (decide P) = true then x else y) = if P then x else y := by
    intro P _ x y
    by_cases h : P <;> simp [h]
  rw [hk]
  by_cases he : e ≤ contents.length
  · rw [wrap32 _ (by omega) (by omega), if_neg (by omega), if_pos he]
    by_cases hk : keyTag E.sha256 secret = tag
    · rw [if_pos hk, if_pos hk.symm]
      have h2 : sliceInt contents ((pre.length + 25 : Nat) : Int) (e : Int) = .ok (rest.take len.toNat) := by
        unfold sliceInt
        rw [if_pos (by omega)]
        refine congrArg Res.ok ?_
        have e' : contents = (pre ++ (tag ++ ([f] ++ be32 len))) ++ rest := by simp [contents]
        have hl' : (pre ++ (tag ++ ([f] ++ be32 len))).length = pre.length + 25 := by simp [ht]
        rw [Int.toNat_natCast, Int.toNat_natCast, e', List.take_append, List.take_of_length_le (by omega),
          List.drop_left' hl', hl']
        show List.take (pre.length + 25 + len.toNat - (pre.length + 25)) rest = _
        rw [Nat.add_sub_cancel_left]
      rw [h2]
      simp only [Res.ok_bind]
      cases enc.decryptBody E secret (rest.take len.toNat) <;> rfl
    · rw [if_neg hk, if_neg (fun h => hk h.symm)]
  · rw [if_neg he]
    by_cases hs : e < 2 ^ 31
    · rw [if_pos hs, wrap32 _ (by omega) (by omega), if_pos (by omega)]
    · rw [if_neg hs, wrap32_over _ (by omega) (by omega), if_neg (by omega)]
      by_cases hk : keyTag E.sha256 secret = tag
      · rw [if_pos hk, if_pos hk.symm]
        have h2 : sliceInt contents ((pre.length + 25 : Nat) : Int) ((e : Int) - 2 ^ 32) = .panic .bounds := by
          unfold sliceInt
          rw [if_neg (by omega)]
        rw [h2]
        rfl
      · rw [if_neg hk, if_neg (fun h => hk h.symm)]

/-- C23: a negative offset (the sum wrapped around to less than 0) is a panic in the next iteration. -/
theorem C23_negative (enc : BucketEncryptor) (secret contents : Bytes) (offset : Int) (h : offset < 0)
    (h' : -2 ^ 31 ≤ offset) (hc : 25 ≤ contents.length) :
    finalizeStep 32 E enc secret contents offset = .done (.panic .bounds) := by
  have hH : ((HeaderSize : Nat) : Int) = 25 := rfl
  unfold finalizeStep
  rw [hH, wrap32 _ (by omega) (by omega), if_neg (by omega)]
  have h1 : sliceInt contents offset contents.length = .panic .bounds := by
    unfold sliceInt
    rw [if_neg (by omega)]
  rw [h1]
  rfl

theorem run32 (enc : BucketEncryptor) (secret : Bytes) (es : List RawEntry) (tail : Bytes) :
    ∀ (pre : Bytes) (n : Nat), (∀ e ∈ es, e.WF) → (pre ++ (bucket es ++ tail)).length + 25 < 2 ^ 31 →
    (tail.length < 25 ∨ ∃ header body len, header.length = 21 ∧ tail = header ++ be32 len ++ body ∧ body.length < len.toNat ∧
      (pre ++ bucket es).length + 25 + len.toNat < 2 ^ 31) → (bucket es ++ tail).length < 25 * n →
    finalizeRun 32 E enc secret (pre ++ (bucket es ++ tail)) n pre.length =
      some (finalizeLoop E enc secret (pre ++ (bucket es ++ tail)) pre.length) := by
  induction es with
  | nil =>
    intro pre n _ hc ht hn
    obtain ⟨n, rfl⟩ : ∃ m, n = m + 1 := ⟨n - 1, by omega⟩
    have hb : bucket [] ++ tail = tail := rfl
    have hb' : pre ++ bucket [] = pre := by simp [bucket]
    rw [hb] at hc ⊢
    rw [hb'] at ht
    rw [List.length_append] at hc
    rcases ht with ht | ⟨header, body, len, hh, htl, hlt, hsum⟩
    · rw [finalizeLoop_end E enc secret _ _ (by rw [List.length_append]; omega)]
      refine finalizeRun_done E n ?_
      unfold finalizeStep
      have hH : ((HeaderSize : Nat) : Int) = 25 := rfl
      rw [hH, wrap32 _ (by omega) (by omega), if_pos (by rw [List.length_append]; omega)]
    · obtain ⟨tag, f, rfl⟩ : ∃ tag f, header = tag ++ [f] := by
        refine ⟨header.dropLast, header.getLast (by intro h; rw [h] at hh; cases hh), (List.dropLast_append_getLast _).symm⟩
      have htag : tag.length = 20 := by simpa using hh
      have htl' : tail = tag ++ ([f] ++ (be32 len ++ body)) := by rw [htl]; simp
      have hbl : tail.length = 25 + body.length := by rw [htl']; simp [htag]; omega
      have hs := C23_step E enc secret pre tag f len body htag (by rw [← htl', List.length_append]; omega)
      have hl := finalizeLoop_step E enc secret pre tag f len body htag
      dsimp only at hs
      rw [← htl', List.length_append, if_neg (by omega), if_pos (by omega)] at hs
      rw [← htl', if_pos hlt] at hl
      rw [hl]
      exact finalizeRun_done E n hs
  | cons e es ih =>
    intro pre n hwf hc ht hn
    have he := hwf e (by simp)
    have hlen : (UInt32.ofNat e.body.length).toNat = e.body.length := by
      rw [UInt32.toNat_ofNat', Nat.mod_eq_of_lt he.2]
    have hb : bucket (e :: es) ++ tail =
        e.tag ++ ([e.flag] ++ (be32 (UInt32.ofNat e.body.length) ++ (e.body ++ (bucket es ++ tail)))) := by
      have : bucket (e :: es) = e.bytes ++ bucket es := by simp [bucket]
      rw [this, rawEntry_bytes e he]
      simp
    have hs := C23_step E enc secret pre e.tag e.flag (UInt32.ofNat e.body.length) (e.body ++ (bucket es ++ tail)) he.1
      (by rw [← hb]; omega)
    have hl := finalizeLoop_step E enc secret pre e.tag e.flag (UInt32.ofNat e.body.length) (e.body ++ (bucket es ++ tail)) he.1
    dsimp only at hs
    have hsz : (bucket (e :: es) ++ tail).length = 25 + e.body.length + (bucket es ++ tail).length := by
      rw [hb]; simp [he.1]; omega
    obtain ⟨n, rfl⟩ : ∃ m, n = m + 1 := ⟨n - 1, by omega⟩
    rw [← hb, hlen, if_pos (by rw [List.length_append]; omega)] at hs
    rw [← hb, hlen, if_neg (by rw [List.length_append]; omega)] at hl
    rw [hl]
    by_cases hk : e.tag = keyTag E.sha256 secret
    · rw [if_pos hk] at hs
      rw [if_pos hk.symm]
      exact finalizeRun_done E n hs
    · rw [if_neg hk] at hs
      rw [if_neg (fun h => hk h.symm)]
      rw [finalizeRun_next E n hs]
      have hp : pre ++ (bucket (e :: es) ++ tail) = (pre ++ e.bytes) ++ (bucket es ++ tail) := by simp [bucket]
      have hpl : (pre ++ e.bytes).length = pre.length + 25 + e.body.length := by
        rw [rawEntry_bytes e he]; simp [he.1]; omega
      have := ih (pre ++ e.bytes) n (fun x hx => hwf x (by simp [hx])) (by rw [← hp]; exact hc) (by
        have hq : (pre ++ e.bytes) ++ bucket es = pre ++ bucket (e :: es) := by simp [bucket]
        rw [hq]; exact ht) (by omega)
      rw [hp, ← hpl]
      exact this

/-- C23: and in all other cases a 32-bit platform gives the same result as a 64-bit one, after as many iterations: on
well-formed entries followed by fewer than 25 bytes (what an honest server sends), or by a header whose length field
leads beyond the end, but to less than 2^31. (Every bucket is of one of these forms or has an entry that ends at 2^31
or more: C25_every_bucket.) -/
theorem C23_same (enc : BucketEncryptor) (secret : Bytes) (es : List RawEntry) (hwf : ∀ e ∈ es, e.WF) (tail : Bytes)
    (hc : (bucket es ++ tail).length + 25 < 2 ^ 31)
    (ht : tail.length < 25 ∨ ∃ header body len, header.length = 21 ∧ len < 2 ^ 32 ∧ tail = header ++ len32 len ++ body ∧
      body.length < len ∧ (bucket es).length + 25 + len < 2 ^ 31) :
    finalizeRun 32 E enc secret (bucket es ++ tail) ((bucket es ++ tail).length / 25 + 1) 0 =
      finalizeRun 64 E enc secret (bucket es ++ tail) ((bucket es ++ tail).length / 25 + 1) 0 := by
  have h64 := finalizeRun64 E enc secret (bucket es ++ tail) (by omega) ((bucket es ++ tail).length / 25 + 1) 0 (by omega)
    (by omega)
  have h32 := run32 E enc secret es tail [] ((bucket es ++ tail).length / 25 + 1) hwf (by simpa using hc) (by
    rcases ht with h | ⟨header, body, len, h1, h2, h3, h4, h5⟩
    · exact Or.inl h
    · refine Or.inr ⟨header, body, UInt32.ofNat len, h1, ?_, ?_, ?_⟩
      · rw [h3, be32_ofNat _ h2]; rfl
      · rw [UInt32.toNat_ofNat', Nat.mod_eq_of_lt h2]; exact h4
      · rw [UInt32.toNat_ofNat', Nat.mod_eq_of_lt h2]; simpa using h5) (by omega)
  exact h32.trans h64.symm

/-- C23: the top bit of the length field need not be set: for every secret there is a 25-byte bucket with length field
`0x7fffffff` on which the loop panics. -/
theorem C23_panics_positive (enc : BucketEncryptor) (secret : Bytes) :
    ∃ tag : Bytes, tag.length = 20 ∧ let contents := tag ++ ([0] ++ be32 0x7fffffff)
      finalizeRun 32 E enc secret contents 2 0 = some (.panic .bounds) := by
  obtain ⟨tag, ht, hne⟩ : ∃ tag : Bytes, tag.length = 20 ∧ tag ≠ keyTag E.sha256 secret := by
    by_cases h : keyTag E.sha256 secret = List.replicate 20 0
    · exact ⟨List.replicate 20 1, by simp, by rw [h]; decide⟩
    · exact ⟨List.replicate 20 0, by simp, fun e => h e.symm⟩
  refine ⟨tag, ht, ?_⟩
  have hl : (tag ++ ([0] ++ (be32 0x7fffffff ++ [])) : Bytes).length = 25 := by simp [ht]
  have hs := C23_step E enc secret [] tag 0 0x7fffffff [] ht (by rw [List.nil_append, hl]; omega)
  dsimp only at hs
  have hv : (0x7fffffff : UInt32).toNat = 2147483647 := rfl
  rw [List.nil_append, hl, hv, if_neg (by simp), if_neg (by simp), if_neg hne] at hs
  have hn := C23_negative E enc secret (tag ++ ([0] ++ (be32 0x7fffffff ++ []))) (-2147483624) (by omega) (by omega) (by omega)
  rw [List.append_nil] at hs hn
  dsimp only
  have h0 : ((List.length ([] : Bytes) : Nat) : Int) = 0 := rfl
  have h1 : (((List.length ([] : Bytes) + 25 + 2147483647 : Nat) : Int) - 2 ^ 32) = -2147483624 := by simp
  rw [h0, h1] at hs
  rw [finalizeRun_next E 1 hs, finalizeRun_done E 0 hn]

/-- C23_same: an entry, and an entry that overruns the end by one byte. -/
example (secret : Bytes) : ∃ e : RawEntry, e.WF ∧
    (bucket [e] ++ ((List.replicate 21 0 ++ len32 3) ++ [1, 2])).length + 25 < 2 ^ 31 ∧
    finalizeRun 32 E .hkdfSHA256 secret (bucket [e] ++ ((List.replicate 21 0 ++ len32 3) ++ [1, 2])) 3 0 =
      finalizeRun 64 E .hkdfSHA256 secret (bucket [e] ++ ((List.replicate 21 0 ++ len32 3) ++ [1, 2])) 3 0 := by
  refine ⟨⟨List.replicate 20 7, 1, [5]⟩, ⟨by decide, by decide⟩, by decide, ?_⟩
  exact C23_same E .hkdfSHA256 secret [⟨List.replicate 20 7, 1, [5]⟩]
    (fun e he => by have := List.mem_singleton.mp he; subst this; exact ⟨by decide, by decide⟩) _ (by decide)
    (Or.inr ⟨List.replicate 21 0, [1, 2], 3, by decide, by decide, rfl, by decide, by decide⟩)

end Migp.Props
