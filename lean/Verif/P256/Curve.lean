import Verif.P256.Primes
import Verif.P256.Steps
import Mathlib.AlgebraicGeometry.EllipticCurve.Affine.Point
import Mathlib.Algebra.Field.ZMod
/-!
# The curve P-256 and the order of its base point
-/
namespace Migp.P256
open WeierstrassCurve

instance : Fact p.Prime := ⟨prime_p⟩
instance : Fact q.Prime := ⟨prime_q⟩

/-- The field. -/
abbrev F := ZMod p

/-- The curve's constant term. -/
@[irreducible] def b : ℕ := 0x5ac635d8aa3a93e7b3ebbd55769886bc651d06b0cc53b0f63bce3c3e27d2604b

/-- The curve `y² = x³ - 3x + b` (FIPS 186-4, D.1.2.3). -/
def W : Affine F := ⟨0, 0, 0, -3, (b : F)⟩

theorem equation_iff (x y : F) : W.Equation x y ↔ y ^ 2 = x ^ 3 - 3 * x + b := by
  rw [Affine.equation_iff]
  show y ^ 2 + 0 * x * y + 0 * y = x ^ 3 + 0 * x ^ 2 + -3 * x + (b : F) ↔ _
  constructor <;> intro h <;> linear_combination h

theorem neg_cast (n : ℕ) : ((p - n % p : ℕ) : F) = -(n : F) := by
  have h : n % p < p := Nat.mod_lt _ prime_p.pos
  rw [Nat.cast_sub (Nat.le_of_lt h), ZMod.natCast_self, ZMod.natCast_mod, zero_sub]

theorem cast_ne_zero {n : ℕ} (h : n % p ≠ 0) : (n : F) ≠ 0 := by
  rw [Ne, ZMod.natCast_eq_zero_iff, Nat.dvd_iff_mod_eq_zero]
  exact h

theorem cast_eq {m n : ℕ} (h : m % p = n % p) : (m : F) = n := (ZMod.natCast_eq_natCast_iff' m n p).mpr h

theorem discriminant : W.Δ ≠ 0 := by
  have h : W.Δ = -((432 * (b ^ 2 - 4) : ℕ) : F) := by
    have h4 : 4 ≤ b ^ 2 := by decide +kernel
    rw [Nat.cast_mul, Nat.cast_sub h4, Nat.cast_pow]
    unfold WeierstrassCurve.Δ WeierstrassCurve.b₂ WeierstrassCurve.b₄ WeierstrassCurve.b₆ WeierstrassCurve.b₈ W
    dsimp only
    push_cast
    ring
  rw [h]
  exact neg_ne_zero.mpr (cast_ne_zero (by decide +kernel))

theorem nonsingular {x y : F} (h : y ^ 2 = x ^ 3 - 3 * x + b) : W.Nonsingular x y :=
  (Affine.equation_iff_nonsingular_of_Δ_ne_zero discriminant).mp ((equation_iff x y).mpr h)

theorem on_curve {x y : F} (h : W.Nonsingular x y) : y ^ 2 = x ^ 3 - 3 * x + b := (equation_iff x y).mp h.1

theorem negY (x y : F) : W.negY x y = -y := by
  unfold Affine.negY W
  dsimp only
  ring

theorem some_eq {x y x' y' : F} {h : W.Nonsingular x y} (hx : x = x') (hy : y = y') :
    ∃ h', Affine.Point.some x y h = Affine.Point.some (W' := W) x' y' h' := by
  subst hx hy
  exact ⟨h, rfl⟩

/-- The group law with the slope given: doubling. -/
theorem double {x y l : F} (h : W.Nonsingular x y) (hl : l * (2 * y) = 3 * x ^ 2 - 3) (hy : 2 * y ≠ 0) :
    ∃ h', Affine.Point.some x y h + Affine.Point.some x y h =
      Affine.Point.some (W' := W) (l ^ 2 - 2 * x) (l * (x - (l ^ 2 - 2 * x)) - y) h' := by
  have hne : y ≠ W.negY x y := by
    rw [negY]
    intro e
    apply hy
    linear_combination e
  have hs : W.slope x x y y = l := by
    rw [Affine.slope_of_Y_ne rfl hne, negY, div_eq_iff (by intro e; apply hy; linear_combination e)]
    unfold W
    dsimp only
    linear_combination -hl
  rw [Affine.Point.add_self_of_Y_ne hne]
  apply some_eq
  · rw [hs]; unfold Affine.addX W; dsimp only; ring
  · rw [hs]; unfold Affine.addY Affine.negAddY; rw [negY]; unfold Affine.addX W; dsimp only; ring

/-- The group law with the slope given: adding points with different first coordinates. -/
theorem addition {x y x' y' l : F} (h : W.Nonsingular x y) (h' : W.Nonsingular x' y') (hl : l * (x - x') = y - y')
    (hx : x ≠ x') :
    ∃ h'', Affine.Point.some x y h + Affine.Point.some x' y' h' =
      Affine.Point.some (W' := W) (l ^ 2 - x - x') (l * (x - (l ^ 2 - x - x')) - y) h'' := by
  have hs : W.slope x x' y y' = l := by
    rw [Affine.slope_of_X_ne hx, div_eq_iff (sub_ne_zero.mpr hx), hl]
  rw [Affine.Point.add_of_X_ne hx]
  apply some_eq
  · rw [hs]; unfold Affine.addX W; dsimp only; ring
  · rw [hs]; unfold Affine.addY Affine.negAddY; rw [negY]; unfold Affine.addX W; dsimp only; ring

/-- The coordinates of the base point. -/
@[irreducible] def gx : ℕ := 0x6b17d1f2e12c4247f8bce6e563a440f277037d812deb33a0f4a13945d898c296
@[irreducible] def gy : ℕ := 0x4fe342e2fe1a7f9b8ee7eb4a7c0f9e162bce33576b315ececbb6406837bf51f5

theorem base_on_curve : W.Nonsingular (gx : F) (gy : F) := by
  apply nonsingular
  have h : ((gy ^ 2 + 3 * gx : ℕ) : F) = ((gx ^ 3 + b : ℕ) : F) := cast_eq (by decide +kernel)
  push_cast at h
  linear_combination h

/-- The base point. -/
def G : W.Point := .some _ _ base_on_curve

/-- Doubling modulo `p`, with a check of the slope `l`. -/
def dbl (x y l : ℕ) : Option (ℕ × ℕ) :=
  if l * (2 * y) % p = (3 * x ^ 2 + (p - 3 % p)) % p ∧ 2 * y % p ≠ 0 then
    some ((l ^ 2 + 2 * (p - x % p)) % p, (l * (x + (p - (l ^ 2 + 2 * (p - x % p)) % p)) + (p - y % p)) % p)
  else none

/-- Adding the base point modulo `p`, with a check of the slope `l`. -/
def addG (x y l : ℕ) : Option (ℕ × ℕ) :=
  if l * (x + (p - gx % p)) % p = (y + (p - gy % p)) % p ∧ (x + (p - gx % p)) % p ≠ 0 then
    some ((l ^ 2 + (p - x % p) + (p - gx % p)) % p,
      (l * (x + (p - (l ^ 2 + (p - x % p) + (p - gx % p)) % p)) + (p - y % p)) % p)
  else none

theorem neg_cast' (n : ℕ) : ((p - (n % p) : ℕ) : F) = -(n : F) := neg_cast n

theorem dbl_spec {x y l x' y' : ℕ} (h : W.Nonsingular (x : F) (y : F)) (hd : dbl x y l = some (x', y')) :
    ∃ h', Affine.Point.some _ _ h + Affine.Point.some _ _ h = Affine.Point.some (W' := W) (x' : F) (y' : F) h' := by
  unfold dbl at hd
  split at hd
  · rename_i hc
    injection hd with hd
    obtain ⟨e1, e2⟩ := Prod.mk.inj hd
    have c1 := cast_eq hc.1
    have c2 := cast_ne_zero hc.2
    rw [Nat.cast_add, neg_cast] at c1
    push_cast at c1 c2
    obtain ⟨h', hh⟩ := double (l := (l : F)) h (by linear_combination c1) c2
    rw [hh]
    apply some_eq
    · rw [← e1, ZMod.natCast_mod, Nat.cast_add, Nat.cast_mul, neg_cast]
      push_cast; ring
    · rw [← e2, ZMod.natCast_mod, Nat.cast_add, Nat.cast_mul, Nat.cast_add x, neg_cast, neg_cast, Nat.cast_add, Nat.cast_mul, neg_cast]
      push_cast; ring
  · cases hd

theorem addG_spec {x y l x' y' : ℕ} (h : W.Nonsingular (x : F) (y : F)) (hd : addG x y l = some (x', y')) :
    ∃ h', Affine.Point.some _ _ h + G = Affine.Point.some (W' := W) (x' : F) (y' : F) h' := by
  unfold addG at hd
  split at hd
  · rename_i hc
    injection hd with hd
    obtain ⟨e1, e2⟩ := Prod.mk.inj hd
    have c1 := cast_eq hc.1
    have c2 := cast_ne_zero hc.2
    rw [Nat.cast_mul, Nat.cast_add, Nat.cast_add, neg_cast, neg_cast] at c1
    rw [Nat.cast_add, neg_cast] at c2
    obtain ⟨h', hh⟩ := addition (l := (l : F)) h base_on_curve (by linear_combination c1)
      (by intro e; apply c2; rw [e]; ring)
    unfold G
    rw [hh]
    apply some_eq
    · rw [← e1, ZMod.natCast_mod, Nat.cast_add, Nat.cast_add, neg_cast, neg_cast]
      push_cast; ring
    · rw [← e2, ZMod.natCast_mod, Nat.cast_add, Nat.cast_mul, Nat.cast_add x, neg_cast, neg_cast, Nat.cast_add, Nat.cast_add,
        neg_cast, neg_cast]
      push_cast; ring
  · cases hd

/-- Double-and-add with given slopes; `d` doubles, `a` adds the base point. -/
def run (d a : ℕ → ℕ → ℕ → Option (ℕ × ℕ)) : List (Bool × ℕ × ℕ) → ℕ × ℕ → Option (ℕ × ℕ)
  | [], P => some P
  | (bit, l, m) :: rest, P =>
    (d P.1 P.2 l).bind fun P => (if bit then a P.1 P.2 m else some P).bind fun P => run d a rest P

/-- The number that is multiplied with. -/
def number : List (Bool × ℕ × ℕ) → ℕ → ℕ
  | [], k => k
  | (bit, _, _) :: rest, k => number rest (2 * k + bit.toNat)

theorem run_spec (l : List (Bool × ℕ × ℕ)) (x y x' y' k : ℕ) (h : W.Nonsingular (x : F) (y : F))
    (hk : k • G = Affine.Point.some _ _ h) (hr : run dbl addG l (x, y) = some (x', y')) :
    ∃ h', number l k • G = Affine.Point.some (W' := W) (x' : F) (y' : F) h' := by
  have hd0 := @dbl_spec
  have ha0 := @addG_spec
  generalize dbl = d at hr hd0
  generalize addG = a at hr ha0
  induction l generalizing x y k with
  | nil =>
    unfold run at hr
    injection hr with hr
    obtain ⟨rfl, rfl⟩ := Prod.mk.inj hr
    exact ⟨h, hk⟩
  | cons st rest ih =>
    obtain ⟨bit, l, m⟩ := st
    unfold run at hr
    obtain ⟨⟨x1, y1⟩, hd, hr1⟩ := Option.bind_eq_some_iff.mp hr
    obtain ⟨h1, e1⟩ := hd0 h hd
    have k1 : (2 * k) • G = Affine.Point.some _ _ h1 := by rw [Nat.mul_comm, mul_nsmul, two_nsmul, hk, e1]
    obtain ⟨⟨x2, y2⟩, ha, hr2⟩ := Option.bind_eq_some_iff.mp hr1
    cases bit with
    | false =>
      rw [if_neg (by decide)] at ha
      injection ha with ha
      obtain ⟨rfl, rfl⟩ := Prod.mk.inj ha
      exact ih x1 y1 (2 * k) h1 k1 hr2
    | true =>
      rw [if_pos rfl] at ha
      obtain ⟨h2, e2⟩ := ha0 h1 ha
      exact ih x2 y2 (2 * k + 1) h2 (by rw [add_nsmul, one_nsmul, k1, e2]) hr2

theorem number_steps : number steps 1 + 1 = q := by decide +kernel

theorem run_steps : run dbl addG steps (gx, gy) = some (gx, p - gy % p) := by decide +kernel

/-- The order of the base point divides `q`. -/
theorem q_nsmul_G : q • G = 0 := by
  obtain ⟨h', e⟩ := run_spec steps gx gy _ _ 1 base_on_curve (one_nsmul G) run_steps
  rw [← number_steps, add_nsmul, one_nsmul, e]
  exact Affine.Point.add_of_Y_eq rfl (by rw [negY, neg_cast])

theorem G_ne_zero : G ≠ 0 := Affine.Point.some_ne_zero _

theorem addOrderOf_G : addOrderOf G = q := addOrderOf_eq_prime q_nsmul_G G_ne_zero

end Migp.P256
