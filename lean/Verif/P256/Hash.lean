import Verif.P256.Element
import Verif.Go.Sha256
/-!
# Hashing to the curve

`circl/group`, short.go: `wG.HashToElement`, `wG.HashToScalar`, with hash.go (`HashToField`), expander.go
(`expander.NewExpanderMD(crypto.SHA256, dst)`) and the simplified SWU map: RFC 9380, sections 5.2, 5.3.1 and 6.6.2,
suite `P256_XMD:SHA-256_SSWU_RO_`. The end of the file checks the definitions against a test vector of the RFC.
-/
namespace Migp.P256
open WeierstrassCurve

/-! ## `expand_message_xmd` and `hash_to_field` -/

/-- The blocks after the first: each hashes the exclusive or of the block before with `b0`. -/
def moreBlocks (b0 dst : Bytes) : (count : ℕ) → (index : ℕ) → (last : Bytes) → Bytes
  | 0, _, _ => []
  | n + 1, i, last =>
    let next := Sha256.sum256 (List.zipWith (fun x y => x ^^^ y) b0 last ++ [UInt8.ofNat i] ++ dst)
    next ++ moreBlocks b0 dst n (i + 1) next

/-- `len` bytes from a message, with the domain separation tag `tag`. -/
def expand (tag msg : Bytes) (len : ℕ) : Bytes :=
  let dst := tag ++ toBytes 1 tag.length
  let b0 := Sha256.sum256 (List.replicate 64 0 ++ msg ++ toBytes 2 len ++ [0] ++ dst)
  let b1 := Sha256.sum256 (b0 ++ [1] ++ dst)
  (b1 ++ moreBlocks b0 dst ((len + 31) / 32 - 1) 2 b1).take len

/-- Number `i` of `count` numbers below `m` from a message, each from 48 bytes. -/
def toField (tag msg : Bytes) (m count i : ℕ) : ℕ :=
  ofBytes (((expand tag msg (48 * count)).drop (48 * i)).take 48) % m

/-! ## The map to the curve -/

/-- The constant `Z` of the map. -/
def Z : F := -10

/-- The two candidates for the first coordinate. -/
def x1 (u : F) : F :=
  let tv := ((Z * u ^ 2) ^ 2 + Z * u ^ 2)⁻¹
  if tv = 0 then (b : F) / (Z * (-3)) else (b : F) / 3 * (1 + tv)
def x2 (u : F) : F := Z * u ^ 2 * x1 u

/-- `map_to_curve_simple_swu` up to the sign of the second coordinate. -/
def sswu (u : F) : F × F :=
  if root (rhs (x1 u)) ^ 2 = rhs (x1 u) then (x1 u, root (rhs (x1 u))) else (x2 u, root (rhs (x2 u)))

/-- Its sign is that of `u`. -/
def withSign (u : F) (y : F) : F := if y.val % 2 = u.val % 2 then y else -y

theorem cast_powMod (a : ℕ) {e : ℕ} (h : e < 2 ^ 256) : ((powMod p a 256 e : ℕ) : F) = (a : F) ^ e := by
  rw [powMod_eq _ _ _ _ h, ZMod.natCast_mod, Nat.cast_pow]

theorem half_lt : (p - 1) / 2 < 2 ^ 256 := by decide +kernel

/-- `Z` is not a square. -/
theorem Z_nonsquare : Z ^ ((p - 1) / 2) = -1 := by
  have h : powMod p (p - 10) 256 ((p - 1) / 2) = p - 1 := by decide +kernel
  have e := cast_powMod (p - 10) half_lt
  have h1 : 10 ≤ p := by decide +kernel
  rw [h, Nat.cast_sub (by omega), Nat.cast_sub h1, ZMod.natCast_self, zero_sub, zero_sub] at e
  rw [show Z = -((10 : ℕ) : F) from rfl, ← e, Nat.cast_one]

/-- The exceptional first coordinate `b / 30`. -/
def xe : ℕ := b * powMod p 30 256 (p - 2) % p

theorem xe_eq : (xe : F) = (b : F) / (Z * (-3)) := by
  have h : 30 * xe % p = b % p := by decide +kernel
  have e : ((30 * xe : ℕ) : F) = (b : F) := cast_eq h
  have h30 : ((30 : ℕ) : F) ≠ 0 := cast_ne_zero (by decide +kernel)
  have hz : Z * (-3) = ((30 : ℕ) : F) := by unfold Z; push_cast; ring
  rw [hz, eq_div_iff h30, ← e, Nat.cast_mul, mul_comm]

theorem xe_square : rhs (xe : F) ^ ((p - 1) / 2) = 1 := by
  have h : powMod p (xe ^ 3 + 3 * (p - xe) + b) 256 ((p - 1) / 2) = 1 := by decide +kernel
  have e := cast_powMod (xe ^ 3 + 3 * (p - xe) + b) half_lt
  have hle : xe ≤ p := by decide +kernel
  rw [h, Nat.cast_one] at e
  rw [e]
  congr 1
  unfold rhs
  rw [Nat.cast_add, Nat.cast_add, Nat.cast_mul, Nat.cast_sub hle, ZMod.natCast_self, Nat.cast_pow]
  push_cast
  ring

theorem three_ne_zero : (3 : F) ≠ 0 := by
  have : ((3 : ℕ) : F) ≠ 0 := cast_ne_zero (by decide +kernel)
  exact_mod_cast this

/-- If the first candidate is not on the curve, the second is. -/
theorem second_square {u : F} (h : root (rhs (x1 u)) ^ 2 ≠ rhs (x1 u)) : root (rhs (x2 u)) ^ 2 = rhs (x2 u) := by
  rw [root_sq] at h ⊢
  have h0 : rhs (x1 u) ≠ 0 := fun e => h (by rw [e, zero_mul])
  have hm : rhs (x1 u) ^ ((p - 1) / 2) = -1 := by
    rcases euler h0 with e | e
    · exact absurd (by rw [e, mul_one]) h
    · exact e
  have htv : (Z * u ^ 2) ^ 2 + Z * u ^ 2 ≠ 0 := by
    intro e
    have hx : x1 u = (xe : F) := by
      unfold x1
      rw [e, inv_zero]
      exact (if_pos rfl).trans xe_eq.symm
    rw [hx, xe_square] at hm
    have h2 : ((2 : ℕ) : F) ≠ 0 := cast_ne_zero (by decide +kernel)
    apply h2
    push_cast
    linear_combination hm
  have hu : u ≠ 0 := by
    rintro rfl
    exact htv (by ring)
  have ht : (Z * u ^ 2) ^ ((p - 1) / 2) = -1 := by
    rw [mul_pow, Z_nonsquare, ← pow_mul, root_exp.2, ZMod.pow_card_sub_one_eq_one hu, mul_one]
  have hx : 3 * x1 u * ((Z * u ^ 2) ^ 2 + Z * u ^ 2) = b * ((Z * u ^ 2) ^ 2 + Z * u ^ 2 + 1) := by
    unfold x1
    generalize (Z * u ^ 2) ^ 2 + Z * u ^ 2 = d at htv
    dsimp only
    rw [if_neg (inv_ne_zero htv)]
    field_simp [three_ne_zero]
  have hg : rhs (x2 u) = (Z * u ^ 2) ^ 3 * rhs (x1 u) := by
    unfold x2
    generalize Z * u ^ 2 = t at hx
    generalize x1 u = x at hx
    unfold rhs
    linear_combination (t - 1) * hx
  have h1 : ((Z * u ^ 2) ^ 3 * rhs (x1 u)) ^ ((p - 1) / 2) = 1 := by
    rw [mul_pow, hm, pow_right_comm, ht]
    ring
  rw [hg, h1, mul_one]

theorem sswu_on_curve (u : F) : (sswu u).2 ^ 2 = rhs (sswu u).1 := by
  unfold sswu
  split
  · rename_i h; exact h
  · rename_i h; exact second_square h

theorem withSign_sq (u y : F) : withSign u y ^ 2 = y ^ 2 := by
  unfold withSign
  split <;> ring

/-- `map_to_curve_simple_swu` -/
def map (u : F) : W.Point :=
  .some (sswu u).1 (withSign u (sswu u).2) (nonsingular ((withSign_sq u _).trans (sswu_on_curve u)))

/-- `HashToElement(msg, tag)` -/
noncomputable def hashToCurve (tag msg : Bytes) : W.Point :=
  map (toField tag msg p 2 0 : F) + map (toField tag msg p 2 1 : F)

/-! ## The same with numbers, and a test vector

RFC 9380, J.1.1: the message is empty. -/

theorem cast_eq_iff {m n : ℕ} : (m : F) = n ↔ m % p = n % p := ZMod.natCast_eq_natCast_iff' m n p

theorem inv_eq (a : F) : a⁻¹ = a ^ (p - 2) := by
  have h2 : p - 2 ≠ 0 := by decide +kernel
  by_cases h : a = 0
  · rw [h, inv_zero, zero_pow h2]
  · apply inv_eq_of_mul_eq_one_left
    rw [← pow_succ, show p - 2 + 1 = p - 1 by omega]
    exact ZMod.pow_card_sub_one_eq_one h

def rhsN (x : ℕ) : ℕ := (x ^ 3 + 3 * (p - x % p) + b) % p
def rootN (c : ℕ) : ℕ := powMod p c 256 ((p + 1) / 4)
def tN (u : ℕ) : ℕ := (p - 10) * u ^ 2 % p
def tvN (u : ℕ) : ℕ := powMod p ((tN u) ^ 2 + tN u) 256 (p - 2)
def x1N (u : ℕ) : ℕ := if tvN u % p = 0 then xe else b * powMod p 3 256 (p - 2) * (1 + tvN u) % p
def x2N (u : ℕ) : ℕ := tN u * x1N u % p
def sswuN (u : ℕ) : ℕ × ℕ :=
  if rootN (rhsN (x1N u)) ^ 2 % p = rhsN (x1N u) % p then (x1N u, rootN (rhsN (x1N u)))
  else (x2N u, rootN (rhsN (x2N u)))
def withSignN (u y : ℕ) : ℕ := if y % p % 2 = u % p % 2 then y else p - y % p

theorem rhsN_cast (x : ℕ) : (rhsN x : F) = rhs x := by
  unfold rhsN rhs
  rw [ZMod.natCast_mod, Nat.cast_add, Nat.cast_add, Nat.cast_mul, neg_cast, Nat.cast_pow]
  push_cast
  ring
theorem rootN_cast (c : ℕ) : (rootN c : F) = root c := cast_powMod c (by decide +kernel)
theorem p2_lt : p - 2 < 2 ^ 256 := by decide +kernel
theorem tN_cast (u : ℕ) : (tN u : F) = Z * u ^ 2 := by
  have h1 : 10 ≤ p := by decide +kernel
  unfold tN Z
  rw [ZMod.natCast_mod, Nat.cast_mul, Nat.cast_sub h1, ZMod.natCast_self, Nat.cast_pow]
  push_cast
  ring
theorem tvN_cast (u : ℕ) : (tvN u : F) = ((Z * u ^ 2) ^ 2 + Z * u ^ 2)⁻¹ := by
  unfold tvN
  rw [cast_powMod _ p2_lt, ← inv_eq, Nat.cast_add, Nat.cast_pow, tN_cast]
theorem x1N_cast (u : ℕ) : (x1N u : F) = x1 u := by
  unfold x1N x1
  have h : (tvN u % p = 0) ↔ ((Z * (u : F) ^ 2) ^ 2 + Z * (u : F) ^ 2)⁻¹ = 0 := by
    rw [← tvN_cast, ZMod.natCast_eq_zero_iff, Nat.dvd_iff_mod_eq_zero]
  by_cases h0 : tvN u % p = 0
  · rw [if_pos h0]
    exact xe_eq.trans (if_pos (h.mp h0)).symm
  · rw [if_neg h0]
    refine Eq.trans ?_ (if_neg (fun e => h0 (h.mpr e))).symm
    rw [ZMod.natCast_mod, Nat.cast_mul, Nat.cast_mul, cast_powMod _ p2_lt, ← inv_eq, Nat.cast_add, tvN_cast]
    push_cast
    ring
theorem x2N_cast (u : ℕ) : (x2N u : F) = x2 u := by
  unfold x2N x2
  rw [ZMod.natCast_mod, Nat.cast_mul, tN_cast, x1N_cast]
theorem sswuN_cast (u : ℕ) : sswu (u : F) = (((sswuN u).1 : F), ((sswuN u).2 : F)) := by
  unfold sswu sswuN
  rw [← x1N_cast, ← x2N_cast, ← rhsN_cast, ← rhsN_cast, ← rootN_cast, ← rootN_cast, ← Nat.cast_pow]
  by_cases h : rootN (rhsN (x1N u)) ^ 2 % p = rhsN (x1N u) % p
  · rw [if_pos (cast_eq_iff.mpr h), if_pos h]
  · rw [if_neg (fun e => h (cast_eq_iff.mp e)), if_neg h]
theorem withSignN_cast (u y : ℕ) : (withSignN u y : F) = withSign u y := by
  unfold withSignN withSign
  rw [ZMod.val_natCast, ZMod.val_natCast]
  split
  · rfl
  · exact neg_cast y

theorem map_eq (u : ℕ) {x y : ℕ} (h : ((sswuN u).1 % p, withSignN u (sswuN u).2 % p) = (x % p, y % p)) :
    ∃ hn, map (u : F) = .some (x : F) (y : F) hn := by
  injection h with h1 h2
  unfold map
  apply some_eq
  · rw [sswuN_cast]; exact cast_eq h1
  · rw [sswuN_cast, ← withSignN_cast]; exact cast_eq h2

def vectorTag : Bytes := ascii "QUUX-V01-CS02-with-P256_XMD:SHA-256_SSWU_RO_"

/-- A sum of points given by numbers, with the slope. -/
theorem add_eq {x y x' y' l a c : ℕ} {h : W.Nonsingular (x : F) (y : F)} {h' : W.Nonsingular (x' : F) (y' : F)}
    (hl : (l * x + y') % p = (l * x' + y) % p) (hx : x % p ≠ x' % p)
    (ha : (a + x + x') % p = l ^ 2 % p) (hc : (c + l * a + y) % p = (l * x) % p) :
    ∃ h'', Affine.Point.some _ _ h + Affine.Point.some _ _ h' = Affine.Point.some (W' := W) (a : F) (c : F) h'' := by
  have e1 := cast_eq hl
  have e2 := cast_eq ha
  have e3 := cast_eq hc
  push_cast at e1 e2 e3
  obtain ⟨h'', e⟩ := addition (l := (l : F)) h h' (by linear_combination e1) (fun e => hx (cast_eq_iff.mp e))
  rw [e]
  apply some_eq
  · linear_combination -e2
  · linear_combination -e3 + (l : F) * e2

@[irreducible] def vx : ℕ := 0xab640a12220d3ff283510ff3f4b1953d09fad35795140b1c5d64f313967934d5
@[irreducible] def vy : ℕ := 0xdccb558863804a881d4fff3455716c836cef230e5209594ddd33d85c565b19b1
@[irreducible] def vx2 : ℕ := 0x51cce63c50d972a6e51c61334f0f4875c9ac1cd2d3238412f84e31da7d980ef5
@[irreducible] def vy2 : ℕ := 0xb45d1a36d00ad90e5ec7840a60a4de411917fbe7c82c3949a6e699e5a1b66aac
@[irreducible] def vl : ℕ := 0x38507a4a64061b40d505f23c2864845b7befba93ef7fc96943431442532731c9
@[irreducible] def vector_x : ℕ := 0x2c15230b26dbc6fc9a37051158c95b79656e17a1a920b11394ca91c44247d3e4
@[irreducible] def vector_y : ℕ := 0x8a7a74985cc5c776cdfe4b1f19884970453912e9d31528c060be9ab5c43e8415

theorem test_vector : ∃ hn, hashToCurve vectorTag [] = .some (vector_x : F) (vector_y : F) hn := by
  obtain ⟨n1, e1⟩ := map_eq (toField vectorTag [] p 2 0) (x := vx) (y := vy) (by decide +kernel)
  obtain ⟨n2, e2⟩ := map_eq (toField vectorTag [] p 2 1) (x := vx2) (y := vy2) (by decide +kernel)
  unfold hashToCurve
  rw [e1, e2]
  exact add_eq (l := vl) (by decide +kernel) (by decide +kernel) (by decide +kernel) (by decide +kernel)

end Migp.P256
