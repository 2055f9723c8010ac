import Verif.P256.Curve
import Mathlib.FieldTheory.Finite.Basic
import Mathlib.GroupTheory.OrderOfElement
import Mathlib.GroupTheory.Perm.Cycle.Type
/-!
# The order of P-256

The group of points of the curve has exactly `q` elements: it has at most `2p + 1`, the order of the base point divides their
number, and there is no point of order two.
-/
namespace Migp.P256
open WeierstrassCurve

/-! ## No point of order two -/

/-- A polynomial of degree at most two. -/
structure Tri where
  c0 : ℕ
  c1 : ℕ
  c2 : ℕ
deriving DecidableEq

/-- Multiplication modulo `X³ - 3X + b` and modulo `m`, where `nb` is `-b`. -/
def Tri.mul (m nb : ℕ) (s t : Tri) : Tri :=
  ⟨(s.c0 * t.c0 + nb * (s.c1 * t.c2 + s.c2 * t.c1)) % m,
   (s.c0 * t.c1 + s.c1 * t.c0 + 3 * (s.c1 * t.c2 + s.c2 * t.c1) + nb * (s.c2 * t.c2)) % m,
   (s.c0 * t.c2 + s.c1 * t.c1 + s.c2 * t.c0 + 3 * (s.c2 * t.c2)) % m⟩

/-- Powers; the first number bounds the bits of the exponent. -/
def Tri.pow (m nb : ℕ) (t : Tri) : ℕ → ℕ → Tri
  | 0, _ => ⟨1, 0, 0⟩
  | f + 1, e => if e = 0 then ⟨1, 0, 0⟩ else
      let h := Tri.pow m nb t f (e / 2)
      if e % 2 = 1 then ((h.mul m nb h).mul m nb t) else h.mul m nb h

/-- The value at `r`. -/
def Tri.eval (t : Tri) (r : F) : F := t.c0 + t.c1 * r + t.c2 * r ^ 2

theorem Tri.eval_mul {nb : ℕ} {r : F} (hr : r ^ 3 = 3 * r + nb) (s t : Tri) :
    (s.mul p nb t).eval r = s.eval r * t.eval r := by
  unfold Tri.eval Tri.mul
  dsimp only
  simp only [ZMod.natCast_mod]
  push_cast
  linear_combination (-(s.c1 * t.c2 + s.c2 * t.c1) - s.c2 * t.c2 * r) * hr

theorem Tri.eval_pow {nb : ℕ} {r : F} (hr : r ^ 3 = 3 * r + nb) (t : Tri) (f e : ℕ) (h : e < 2 ^ f) :
    (t.pow p nb f e).eval r = t.eval r ^ e := by
  induction f generalizing e with
  | zero =>
    obtain rfl : e = 0 := by omega
    simp [Tri.pow, Tri.eval]
  | succ f ih =>
    unfold Tri.pow
    dsimp only
    have h2 : e / 2 < 2 ^ f := by rw [Nat.pow_succ] at h; omega
    split
    · rename_i h0; rw [h0]; simp [Tri.eval]
    · split
      · rw [Tri.eval_mul hr, Tri.eval_mul hr, ih _ h2, ← pow_add, ← pow_succ]
        congr 1; omega
      · rw [Tri.eval_mul hr, ih _ h2, ← pow_add]
        congr 1; omega

/-- The inverse of `X^p - X` modulo the cubic. -/
def inverse : Tri := ⟨0xa969487079f1744798bf0de6fded091b66e9d328eb0645fe5d979d1339b7f47f,
  0xa4a08891884100c13323460107a8d28eede4387fa3e6e9bfebec9f6d72d0b5cc,
  0x4cde11cf86cb876cd59cf0115813c55af0ecd3cda667d98bb9a347a56aa74a6d⟩

/-- `t - X` -/
def Tri.minusX (m : ℕ) (t : Tri) : Tri := ⟨t.c0, t.c1 + (m - 1 % m), t.c2⟩

theorem inverse_spec :
    ((Tri.pow p (p - b % p) ⟨0, 1, 0⟩ 256 p).minusX p).mul p (p - b % p) inverse = ⟨1, 0, 0⟩ := by decide +kernel

/-- The cubic has no zero in the field. -/
theorem no_root (r : F) : r ^ 3 - 3 * r + b ≠ 0 := by
  intro h0
  have hr : r ^ 3 = 3 * r + ((p - b % p : ℕ) : F) := by rw [neg_cast]; linear_combination h0
  have h1 := congrArg (fun t => Tri.eval t r) inverse_spec
  beta_reduce at h1
  rw [Tri.eval_mul hr] at h1
  have h2 := Tri.eval_pow hr ⟨0, 1, 0⟩ 256 p (by decide +kernel)
  have hx : Tri.eval ⟨0, 1, 0⟩ r = r := by simp [Tri.eval]
  rw [hx, ZMod.pow_card] at h2
  have h3 : Tri.eval ((Tri.pow p (p - b % p) ⟨0, 1, 0⟩ 256 p).minusX p) r = 0 := by
    generalize Tri.pow p (p - b % p) ⟨0, 1, 0⟩ 256 p = t at h2
    unfold Tri.minusX
    unfold Tri.eval at h2 ⊢
    dsimp only
    rw [Nat.cast_add, neg_cast, Nat.cast_one]
    linear_combination h2
  rw [h3, zero_mul] at h1
  have : Tri.eval ⟨1, 0, 0⟩ r = 1 := by simp [Tri.eval]
  rw [this] at h1
  exact zero_ne_one h1

theorem y_ne_zero {x y : F} (h : W.Nonsingular x y) : y ≠ 0 := by
  rintro rfl
  have := on_curve h
  exact no_root x (by rw [← this]; ring)

theorem two_ne_zero' : (2 : F) ≠ 0 := by
  have := cast_ne_zero (n := 2) (by decide +kernel)
  simpa using this

theorem no_two_torsion (P : W.Point) (h : 2 • P = 0) : P = 0 := by
  rcases P with _ | ⟨x, y, hn⟩
  · rfl
  · exfalso
    rw [two_nsmul, ← eq_neg_iff_add_eq_zero, Affine.Point.neg_some] at h
    injection h with _ hy
    rw [negY] at hy
    have : 2 * y = 0 := by linear_combination hy
    rcases mul_eq_zero.mp this with h | h
    · exact two_ne_zero' h
    · exact y_ne_zero hn h

/-! ## The number of points -/

theorem p_odd : p % 2 = 1 := by decide +kernel

/-- Of two different opposite elements of the field one is odd. -/
theorem parity_neg {y : F} (hy : y ≠ 0) : (-y).val % 2 ≠ y.val % 2 := by
  have h1 : (-y).val = p - y.val := by
    have : NeZero y := ⟨hy⟩
    exact ZMod.val_neg_of_ne_zero y
  have h2 : y.val < p := ZMod.val_lt y
  have h3 : y.val ≠ 0 := by rwa [Ne, ZMod.val_eq_zero]
  have := p_odd
  omega

/-- A point is determined by its first coordinate and the parity of the second. -/
theorem eq_of_parity {x y y' : F} (h : y ^ 2 = x ^ 3 - 3 * x + b) (h' : y' ^ 2 = x ^ 3 - 3 * x + b)
    (hp : y.val % 2 = y'.val % 2) : y = y' := by
  rcases sq_eq_sq_iff_eq_or_eq_neg.mp (h.trans h'.symm) with e | e
  · exact e
  · by_cases h0 : y' = 0
    · rw [e, h0, neg_zero]
    · exact absurd (e ▸ hp) (parity_neg h0)

/-- What is written of a point. -/
def code : W.Point → Option (F × Bool)
  | .zero => none
  | .some x y _ => some (x, y.val % 2 == 1)

theorem code_injective : Function.Injective code := by
  intro P Q h
  rcases P with _ | ⟨x, y, hn⟩ <;> rcases Q with _ | ⟨x', y', hn'⟩
  · rfl
  · cases h
  · cases h
  · injection h with h
    obtain ⟨rfl, h2⟩ := Prod.mk.inj h
    have : y = y' := eq_of_parity (on_curve hn) (on_curve hn') (by
      rw [Bool.eq_iff_iff, beq_iff_eq, beq_iff_eq] at h2
      omega)
    subst this
    rfl

instance : Finite W.Point := Finite.of_injective code code_injective

theorem card_le : Nat.card W.Point ≤ 2 * p + 1 := by
  refine (Nat.card_le_card_of_injective code code_injective).trans ?_
  rw [Finite.card_option, Nat.card_prod, Nat.card_zmod, Nat.card_eq_fintype_card, Fintype.card_bool]
  omega

/-- The group of P-256 has exactly `q` elements. -/
theorem card_eq : Nat.card W.Point = q := by
  have hd : q ∣ Nat.card W.Point := addOrderOf_G ▸ addOrderOf_dvd_natCard G
  obtain ⟨k, hk⟩ := hd
  have hpos : 0 < Nat.card W.Point := Nat.card_pos
  have hle := card_le
  have h3 : 2 * p + 1 < q * 3 := by decide +kernel
  have hk3 : k < 3 := by
    rw [hk] at hle
    exact Nat.lt_of_mul_lt_mul_left (Nat.lt_of_le_of_lt hle h3)
  have hk0 : k ≠ 0 := by rintro rfl; omega
  have hk2 : k ≠ 2 := by
    rintro rfl
    have : Fact (Nat.Prime 2) := ⟨Nat.prime_two⟩
    obtain ⟨P, hP⟩ := exists_prime_addOrderOf_dvd_card' (G := W.Point) 2 (by rw [hk]; exact ⟨q, Nat.mul_comm _ _⟩)
    have h0 := no_two_torsion P (by rw [← hP]; exact addOrderOf_nsmul_eq_zero P)
    rw [h0, addOrderOf_zero] at hP
    omega
  obtain rfl : k = 1 := by omega
  rw [hk, Nat.mul_one]

end Migp.P256
