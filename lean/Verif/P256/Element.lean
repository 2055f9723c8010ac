import Verif.P256.Order
import Verif.Go.Basic
/-!
# Elements of P-256 on the wire

`circl/group`, short.go: `wElt.MarshalBinaryCompress`, `wElt.UnmarshalBinary`, with `elliptic.MarshalCompressed`,
`elliptic.UnmarshalCompressed` and `elliptic.Unmarshal` of Go's library.
-/
namespace Migp.P256
open WeierstrassCurve

/-- `k` bytes of a number, the most significant first. -/
def toBytes : ℕ → ℕ → Bytes
  | 0, _ => []
  | k + 1, n => toBytes k (n / 256) ++ [UInt8.ofNat n]

/-- The number of these bytes. -/
def ofBytes (b : Bytes) : ℕ := b.foldl (fun a x => a * 256 + x.toNat) 0

theorem toBytes_length (k n : ℕ) : (toBytes k n).length = k := by
  induction k generalizing n with
  | zero => rfl
  | succ k ih => rw [toBytes, List.length_append, ih]; rfl

theorem ofBytes_concat (b : Bytes) (x : UInt8) : ofBytes (b ++ [x]) = ofBytes b * 256 + x.toNat := by
  unfold ofBytes
  rw [List.foldl_append]; rfl

theorem ofBytes_toBytes (k n : ℕ) (h : n < 256 ^ k) : ofBytes (toBytes k n) = n := by
  induction k generalizing n with
  | zero =>
    obtain rfl : n = 0 := by omega
    rfl
  | succ k ih =>
    rw [toBytes, ofBytes_concat, ih _ (by rw [Nat.pow_succ] at h; omega), UInt8.toNat_ofNat']
    omega

theorem ofBytes_lt (b : Bytes) : ofBytes b < 256 ^ b.length := by
  induction b using List.reverseRecOn with
  | nil => decide
  | append_singleton b x ih =>
    rw [ofBytes_concat, List.length_append, List.length_singleton, Nat.pow_succ]
    have := x.toNat_lt
    omega

theorem toBytes_ofBytes (b : Bytes) : toBytes b.length (ofBytes b) = b := by
  induction b using List.reverseRecOn with
  | nil => rfl
  | append_singleton b x ih =>
    rw [ofBytes_concat, List.length_append, List.length_singleton, toBytes]
    have h1 : (ofBytes b * 256 + x.toNat) / 256 = ofBytes b := by
      have := x.toNat_lt
      omega
    have h2 : UInt8.ofNat (ofBytes b * 256 + x.toNat) = x := by
      apply UInt8.toNat_inj.mp
      rw [UInt8.toNat_ofNat']
      have := x.toNat_lt
      omega
    rw [h1, h2, ih]

attribute [irreducible] toBytes ofBytes

theorem p_lt : p < 256 ^ 32 := by decide +kernel

/-! ## Square roots -/

/-- The right side of the equation of the curve. -/
def rhs (x : F) : F := x ^ 3 - 3 * x + b

/-- A square root if there is one (`p` is 3 modulo 4). -/
def root (c : F) : F := c ^ ((p + 1) / 4)

theorem root_exp : 2 * ((p + 1) / 4) = (p - 1) / 2 + 1 ∧ 2 * ((p - 1) / 2) = p - 1 := by decide +kernel

theorem root_sq (c : F) : root c ^ 2 = c * c ^ ((p - 1) / 2) := by
  unfold root
  rw [← pow_mul, Nat.mul_comm, root_exp.1, pow_succ, mul_comm]

theorem euler {c : F} (h : c ≠ 0) : c ^ ((p - 1) / 2) = 1 ∨ c ^ ((p - 1) / 2) = -1 := by
  apply sq_eq_sq_iff_eq_or_eq_neg.mp
  rw [← pow_mul, Nat.mul_comm, root_exp.2, ZMod.pow_card_sub_one_eq_one h, one_pow]

/-- The square root of a square is right up to its sign. -/
theorem root_of_sq (y : F) : root (y ^ 2) = y ∨ root (y ^ 2) = -y := by
  apply sq_eq_sq_iff_eq_or_eq_neg.mp
  rw [root_sq]
  by_cases h : y = 0
  · rw [h]; ring
  · rw [← pow_mul, root_exp.2, ZMod.pow_card_sub_one_eq_one h, mul_one]

/-- `MarshalBinaryCompress` -/
def ser : W.Point → Bytes
  | .zero => [0]
  | .some x y _ => (if y.val % 2 = 1 then 3 else 2) :: toBytes 32 x.val

open Classical in
/-- The point with these coordinates, if there is one. -/
noncomputable def point (x y : F) : Option W.Point :=
  if h : y ^ 2 = rhs x then some (.some x y (nonsingular h)) else none

/-- `elliptic.UnmarshalCompressed`, after the first byte `t`. -/
noncomputable def decompress (t : UInt8) (x : ℕ) : Option W.Point :=
  if x < p then
    let y := root (rhs x)
    point x (if y.val % 2 = t.toNat % 2 then y else -y)
  else none

/-- `UnmarshalBinary` -/
noncomputable def de (b : Bytes) : Option W.Point :=
  match b with
  | [] => none
  | t :: rest =>
    if t = 0 ∧ rest.length = 0 then some 0
    else if (t = 2 ∨ t = 3) ∧ rest.length = 32 then decompress t (ofBytes rest)
    else if t = 4 ∧ rest.length = 64 then
      if ofBytes (rest.take 32) < p ∧ ofBytes (rest.drop 32) < p then
        point (ofBytes (rest.take 32) : F) (ofBytes (rest.drop 32) : F)
      else none
    else none

theorem point_some {x y : F} (h : y ^ 2 = rhs x) : point x y = some (.some x y (nonsingular h)) := by
  unfold point
  rw [dif_pos h]

theorem val_eq (x : F) : ((x.val : ℕ) : F) = x := ZMod.natCast_zmod_val x

/-- The sign is chosen by the parity. -/
theorem choose {x y : F} (h : y ^ 2 = rhs x) (t : ℕ) (ht : t % 2 = y.val % 2) :
    (if (root (rhs x)).val % 2 = t % 2 then root (rhs x) else -root (rhs x)) = y := by
  by_cases h0 : y = 0
  · have hr : root (rhs x) = 0 := by
      rcases root_of_sq y with e | e <;> rw [h, h0] at e
      · exact e
      · rw [e, neg_zero]
    rw [hr, neg_zero, ite_self, h0]
  · have hn := parity_neg h0
    rcases root_of_sq y with e | e <;> rw [h] at e <;> rw [e]
    · rw [if_pos (by omega)]
    · rw [if_neg (by omega), neg_neg]

/-- Points survive the wire. -/
theorem de_ser (P : W.Point) : de (ser P) = some P := by
  rcases P with _ | ⟨x, y, hn⟩
  · rfl
  · have hc : y ^ 2 = rhs x := on_curve hn
    unfold ser de
    dsimp only
    rw [if_neg (by rw [toBytes_length]; simp), if_pos ⟨by split <;> simp, toBytes_length _ _⟩]
    have hv : x.val < p := ZMod.val_lt x
    rw [ofBytes_toBytes _ _ (Nat.lt_trans hv p_lt)]
    unfold decompress
    rw [if_pos hv, val_eq]
    dsimp only
    rw [choose hc _ (by split <;> (rename_i h; simp; omega)), point_some hc]

theorem ser_length (P : W.Point) (h : P ≠ 0) : (ser P).length = 33 := by
  rcases P with _ | ⟨x, y, hn⟩
  · exact absurd rfl h
  · unfold ser
    rw [List.length_cons, toBytes_length]

/-- The uncompressed form of a point. -/
def full (x y : F) : Bytes := 4 :: (toBytes 32 x.val ++ toBytes 32 y.val)

theorem ofBytes_val {n : ℕ} (h : n < p) : ((n : ℕ) : F).val = n := ZMod.val_cast_of_lt h

theorem ser_some (x y : F) (hn) : ser (Affine.Point.some (W' := W) x y hn) = (if y.val % 2 = 1 then 3 else 2) :: toBytes 32 x.val := rfl

theorem toBytes_take {l : Bytes} (h : l.length = 64) : toBytes 32 (ofBytes (l.take 32)) = l.take 32 := by
  have e := toBytes_ofBytes (l.take 32)
  have hl : (l.take 32).length = 32 := by rw [List.length_take]; omega
  rwa [hl] at e

theorem toBytes_drop {l : Bytes} (h : l.length = 64) : toBytes 32 (ofBytes (l.drop 32)) = l.drop 32 := by
  have e := toBytes_ofBytes (l.drop 32)
  have hl : (l.drop 32).length = 32 := by rw [List.length_drop]; omega
  rwa [hl] at e

theorem point_eq_some {x y : F} {P : W.Point} (h : point x y = some P) : y ^ 2 = rhs x ∧ ∃ hn, P = .some x y hn := by
  unfold point at h
  split at h
  · rename_i hc
    injection h with h
    exact ⟨hc, _, h.symm⟩
  · cases h

/-- Which bytes are read as a point: its compressed and its uncompressed form, nothing else. -/
theorem de_eq_some_iff (b : Bytes) (P : W.Point) :
    de b = some P ↔ b = ser P ∨ ∃ x y hn, P = Affine.Point.some (W' := W) x y hn ∧ b = full x y := by
  constructor
  · intro h
    unfold de at h
    cases b with
    | nil => cases h
    | cons t rest =>
      dsimp only at h
      split at h
      · rename_i hc
        injection h with h
        left
        rw [← h, hc.1, List.length_eq_zero_iff.mp hc.2]
        rfl
      · split at h
        · rename_i hc
          unfold decompress at h
          split at h
          · rename_i hx
            dsimp only at h
            obtain ⟨h1, hn, rfl⟩ := point_eq_some h
            left
            rw [ser_some]
            have hb := toBytes_ofBytes rest
            rw [hc.2] at hb
            rw [ofBytes_val hx, hb]
            congr 1
            have hy0 := y_ne_zero hn
            generalize hr : root (rhs (ofBytes rest : F)) = r at hn hy0 h1
            have ht : t.toNat % 2 = (if r.val % 2 = t.toNat % 2 then r else -r).val % 2 := by
              split
              · rename_i e; exact e.symm
              · rename_i e
                have hr0 : r ≠ 0 := by
                  rw [if_neg e] at hy0
                  exact fun e => hy0 (by rw [e, neg_zero])
                have := parity_neg hr0
                omega
            rw [← ht]
            rcases hc.1 with rfl | rfl <;> rfl
          · cases h
        · split at h
          · rename_i hc
            split at h
            · rename_i hx
              obtain ⟨h1, hn, rfl⟩ := point_eq_some h
              right
              refine ⟨_, _, hn, rfl, ?_⟩
              unfold full
              rw [ofBytes_val hx.1, ofBytes_val hx.2, hc.1, toBytes_take hc.2, toBytes_drop hc.2, List.take_append_drop]
            · cases h
          · cases h
  · rintro (rfl | ⟨x, y, hn, rfl, rfl⟩)
    · exact de_ser P
    · unfold full de
      dsimp only
      have hx : x.val < p := ZMod.val_lt x
      have hy : y.val < p := ZMod.val_lt y
      have ht : (toBytes 32 x.val ++ toBytes 32 y.val).take 32 = toBytes 32 x.val := by
        rw [List.take_append_of_le_length (by rw [toBytes_length]), List.take_of_length_le (by rw [toBytes_length])]
      have hd : (toBytes 32 x.val ++ toBytes 32 y.val).drop 32 = toBytes 32 y.val := by
        rw [List.drop_append_of_le_length (by rw [toBytes_length]), List.drop_of_length_le (by rw [toBytes_length]),
          List.nil_append]
      rw [if_neg (fun h => absurd h.1 (by decide)), if_neg (fun h => absurd h.1 (by decide)),
        if_pos ⟨rfl, by rw [List.length_append, toBytes_length, toBytes_length]⟩, ht, hd,
        ofBytes_toBytes _ _ (Nat.lt_trans hx p_lt), ofBytes_toBytes _ _ (Nat.lt_trans hy p_lt), if_pos ⟨hx, hy⟩, val_eq, val_eq,
        point_some (on_curve hn)]

end Migp.P256
