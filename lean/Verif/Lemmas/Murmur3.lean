import Verif.Go.Murmur3
/-!
# Injectivity of the murmur3 rounds

Two inputs of the same length that differ only inside one 4-byte block have different hashes.
-/
namespace Migp.Murmur3

theorem mul_odd_inj (c d : UInt32) (h : c * d = 1) {x y : UInt32} (e : x * c = y * c) : x = y := by
  have := congrArg (· * d) e
  simpa [UInt32.mul_assoc, h] using this

theorem toBitVec_shiftLeft_lit (x r : UInt32) (n : Nat) (hn : n < 32) (h : r.toNat = n) :
    (x <<< r).toBitVec = x.toBitVec <<< n := by
  rw [UInt32.toBitVec_shiftLeft]
  have : (r.toBitVec % 32).toNat = n := by
    rw [BitVec.toNat_umod]; simp [UInt32.toNat_toBitVec, h]; omega
  rw [BitVec.shiftLeft_eq', this]

theorem toBitVec_shiftRight_lit (x r : UInt32) (n : Nat) (hn : n < 32) (h : r.toNat = n) :
    (x >>> r).toBitVec = x.toBitVec >>> n := by
  rw [UInt32.toBitVec_shiftRight]
  have : (r.toBitVec % 32).toNat = n := by
    rw [BitVec.toNat_umod]; simp [UInt32.toNat_toBitVec, h]; omega
  rw [BitVec.ushiftRight_eq', this]

theorem bv_rotl_inj (n : Nat) (hn : n < 32) {x y : BitVec 32}
    (e : x <<< n ||| x >>> (32 - n) = y <<< n ||| y >>> (32 - n)) : x = y := by
  apply BitVec.eq_of_getLsbD_eq
  intro i hi
  have h1 := congrArg (fun v => v.getLsbD (i + n)) e
  have h2 := congrArg (fun v => v.getLsbD (i + n - 32)) e
  simp only [BitVec.getLsbD_or, BitVec.getLsbD_shiftLeft, BitVec.getLsbD_ushiftRight] at h1 h2
  by_cases hc : i + n < 32
  · have e1 : i + n - n = i := by omega
    have e2 : x.getLsbD (32 - n + (i + n)) = false := BitVec.getLsbD_of_ge _ _ (by omega)
    have e3 : y.getLsbD (32 - n + (i + n)) = false := BitVec.getLsbD_of_ge _ _ (by omega)
    simpa [e1, e2, e3, hc, show ¬ (i + n < n) by omega] using h1
  · have e1 : 32 - n + (i + n - 32) = i := by omega
    have e2 : i + n - 32 < n := by omega
    simpa [e1, e2] using h2

theorem rotl13_inj {x y : UInt32} (e : rotl x 13 = rotl y 13) : x = y := by
  have := congrArg UInt32.toBitVec e
  simp only [rotl, UInt32.toBitVec_or] at this
  rw [toBitVec_shiftLeft_lit _ _ 13 (by decide) rfl, toBitVec_shiftLeft_lit _ _ 13 (by decide) rfl,
    toBitVec_shiftRight_lit _ _ 19 (by decide) rfl, toBitVec_shiftRight_lit _ _ 19 (by decide) rfl] at this
  exact UInt32.toBitVec_inj.mp (bv_rotl_inj 13 (by decide) this)

theorem rotl15_inj {x y : UInt32} (e : rotl x 15 = rotl y 15) : x = y := by
  have := congrArg UInt32.toBitVec e
  simp only [rotl, UInt32.toBitVec_or] at this
  rw [toBitVec_shiftLeft_lit _ _ 15 (by decide) rfl, toBitVec_shiftLeft_lit _ _ 15 (by decide) rfl,
    toBitVec_shiftRight_lit _ _ 17 (by decide) rfl, toBitVec_shiftRight_lit _ _ 17 (by decide) rfl] at this
  exact UInt32.toBitVec_inj.mp (bv_rotl_inj 15 (by decide) this)

/-- `x ^ (x >> n)` is injective for every positive shift: recover the bits from the top down. -/
theorem bv_xorshift_inj (n : Nat) (hn : 0 < n) {x y : BitVec 32}
    (e : x ^^^ x >>> n = y ^^^ y >>> n) : x = y := by
  have key : ∀ k i, 32 ≤ i + k → x.getLsbD i = y.getLsbD i := by
    intro k
    induction k with
    | zero =>
      intro i hi
      rw [BitVec.getLsbD_of_ge _ _ (by omega), BitVec.getLsbD_of_ge _ _ (by omega)]
    | succ k ih =>
      intro i hi
      have h := congrArg (fun v => v.getLsbD i) e
      simp only [BitVec.getLsbD_xor, BitVec.getLsbD_ushiftRight] at h
      have h2 := ih (n + i) (by omega)
      rw [h2] at h
      simpa using h
  exact BitVec.eq_of_getLsbD_eq (fun i hi => key 32 i (by omega))

theorem xorshift_inj (r : UInt32) (n : Nat) (h0 : 0 < n) (hn : n < 32) (h : r.toNat = n)
    {x y : UInt32} (e : x ^^^ (x >>> r) = y ^^^ (y >>> r)) : x = y := by
  have := congrArg UInt32.toBitVec e
  simp only [UInt32.toBitVec_xor] at this
  rw [toBitVec_shiftRight_lit _ _ n hn h, toBitVec_shiftRight_lit _ _ n hn h] at this
  exact UInt32.toBitVec_inj.mp (bv_xorshift_inj n h0 this)

theorem fmix_inj {x y : UInt32} (e : fmix x = fmix y) : x = y := by
  unfold fmix at e
  dsimp only at e
  have e := xorshift_inj 16 16 (by decide) (by decide) rfl e
  have e := mul_odd_inj 0xc2b2ae35 0x7ed1b41d (by decide) e
  have e := xorshift_inj 13 13 (by decide) (by decide) rfl e
  have e := mul_odd_inj 0x85ebca6b 0xa5cb9243 (by decide) e
  exact xorshift_inj 16 16 (by decide) (by decide) rfl e

theorem mixK_inj {x y : UInt32} (e : mixK x = mixK y) : x = y := by
  unfold mixK at e
  have e := mul_odd_inj c2 0x56ed309b (by decide) e
  have e := rotl15_inj e
  exact mul_odd_inj c1 0xdee13bb1 (by decide) e

theorem xor_inj_left {a b c : UInt32} (e : a ^^^ c = b ^^^ c) : a = b := by
  have := congrArg (· ^^^ c) e
  simpa [UInt32.xor_assoc] using this

theorem xor_inj_right {a b c : UInt32} (e : c ^^^ a = c ^^^ b) : a = b := by
  rw [UInt32.xor_comm c a, UInt32.xor_comm c b] at e
  exact xor_inj_left e

theorem round_step_inj {x y : UInt32}
    (e : rotl x 13 * 4 + rotl x 13 + 0xe6546b64 = rotl y 13 * 4 + rotl y 13 + 0xe6546b64) : x = y := by
  have e : rotl x 13 * 4 + rotl x 13 = rotl y 13 * 4 + rotl y 13 := by
    have := congrArg (· - 0xe6546b64) e
    simpa using this
  have h5 : ∀ z : UInt32, z * 4 + z = z * 5 := by
    intro z
    have : (5 : UInt32) = 4 + 1 := rfl
    rw [this, UInt32.mul_add, UInt32.mul_one]
  rw [h5, h5] at e
  exact rotl13_inj (mul_odd_inj 5 0xcccccccd (by decide) e)

/-- A round is injective in the state. -/
theorem round_inj_state {h h' k : UInt32} (e : round h k = round h' k) : h = h' := by
  unfold round at e
  exact xor_inj_left (round_step_inj e)

/-- A round is injective in the block. -/
theorem round_inj_block {h k k' : UInt32} (e : round h k = round h k') : k = k' := by
  unfold round at e
  exact mixK_inj (xor_inj_right (round_step_inj e))

theorem le32_inj {a b c d a' b' c' d' : UInt8} (e : le32 a b c d = le32 a' b' c' d') :
    a = a' ∧ b = b' ∧ c = c' ∧ d = d' := by
  have e := congrArg UInt32.toNat e
  simp only [le32, UInt32.toNat_ofNat'] at e
  have := a.toNat_lt; have := b.toNat_lt; have := c.toNat_lt; have := d.toNat_lt
  have := a'.toNat_lt; have := b'.toNat_lt; have := c'.toNat_lt; have := d'.toNat_lt
  refine ⟨?_, ?_, ?_, ?_⟩ <;> apply UInt8.toNat_inj.mp <;> omega

theorem tail_inj_state {h h' : UInt32} {t : Bytes} (e : tail h t = tail h' t) : h = h' := by
  unfold tail at e
  split at e
  · exact xor_inj_left e
  · exact xor_inj_left e
  · exact xor_inj_left e
  · exact e

/-- The remaining input acts injectively on the state. -/
theorem body_inj_state (h h' : UInt32) (s : Bytes) (e : body h s = body h' s) : h = h' := by
  induction h, s using body_induct generalizing h' with
  | step h a b c d rest ih =>
    rw [body_cons, body_cons] at e
    exact round_inj_state (ih _ e)
  | short h t ht => rw [body_short h t ht, body_short h' t ht] at e; exact tail_inj_state e

/-- Inputs of the same length agreeing everywhere except in the 2-byte front. -/
theorem sum32_front2 {a b a' b' : UInt8} (s : Bytes)
    (e : sum32 (a :: b :: s) = sum32 (a' :: b' :: s)) : a = a' ∧ b = b' := by
  unfold sum32 at e
  have e := fmix_inj e
  simp only [List.length_cons] at e
  have e := xor_inj_left e
  rcases s with _ | ⟨c, _ | ⟨d, rest⟩⟩
  · rw [body_short _ _ (by simp), body_short _ _ (by simp), tail, tail] at e
    have := le32_inj (mixK_inj (xor_inj_right e)); exact ⟨this.1, this.2.1⟩
  · rw [body_short _ _ (by simp), body_short _ _ (by simp), tail, tail] at e
    have := le32_inj (mixK_inj (xor_inj_right e)); exact ⟨this.1, this.2.1⟩
  · rw [body_cons, body_cons] at e
    have := le32_inj (round_inj_block (body_inj_state _ _ rest e)); exact ⟨this.1, this.2.1⟩

/-- Whole blocks at the front: states after hashing the same front agree. -/
theorem body_append_blocks (h : UInt32) (s t : Bytes) (hd : 4 ∣ s.length) :
    body h (s ++ t) = body (body h s) t := by
  induction h, s using body_induct with
  | step h a b c d rest ih =>
    rw [List.cons_append, List.cons_append, List.cons_append, List.cons_append, body_cons, body_cons]
    exact ih (by simp only [List.length_cons] at hd; omega)
  | short h s hs =>
    match s, hs, hd with
    | [], hs, _ => rw [body_short h [] hs]; rfl
    | [_], _, hd => simp at hd
    | [_, _], _, hd => simp at hd
    | [_, _, _], _, hd => simp at hd
    | a :: b :: c :: d :: rest, hs, _ => exact absurd rfl (hs a b c d rest)

/-- Inputs of the same length that differ only inside one aligned 4-byte block never collide. -/
theorem sum32_block (p s : Bytes) {a b c d a' b' c' d' : UInt8} (hp : 4 ∣ p.length)
    (e : sum32 (p ++ a :: b :: c :: d :: s) = sum32 (p ++ a' :: b' :: c' :: d' :: s)) :
    a = a' ∧ b = b' ∧ c = c' ∧ d = d' := by
  unfold sum32 at e
  have e := fmix_inj e
  simp only [List.length_append, List.length_cons] at e
  have e := xor_inj_left e
  rw [body_append_blocks _ _ _ hp, body_append_blocks _ _ _ hp, body_cons, body_cons] at e
  exact le32_inj (round_inj_block (body_inj_state _ _ s e))

end Migp.Murmur3
