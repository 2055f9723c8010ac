import Mathlib.NumberTheory.LucasPrimality
import Mathlib.Tactic.NormNum.Prime
/-!
# The two primes of NIST P-256

The size of the field and the order of the group, with Pratt certificates checked by the kernel.
-/
namespace Migp.P256

/-- `a ^ e mod m` by repeated squaring; the first argument bounds the number of bits of `e`. -/
def powMod (m a : ℕ) : ℕ → ℕ → ℕ
  | 0, _ => 1 % m
  | f + 1, e => if e = 0 then 1 % m else
      if e % 2 = 1 then powMod m a f (e / 2) ^ 2 % m * a % m else powMod m a f (e / 2) ^ 2 % m

theorem powMod_eq (m a f e : ℕ) (h : e < 2 ^ f) : powMod m a f e = a ^ e % m := by
  induction f generalizing e with
  | zero =>
    obtain rfl : e = 0 := by omega
    rfl
  | succ f ih =>
    unfold powMod
    have h2 : e / 2 < 2 ^ f := by rw [Nat.pow_succ] at h; omega
    rw [ih _ h2]
    have hsq : (a ^ (e / 2) % m) ^ 2 % m = a ^ (2 * (e / 2)) % m := by
      rw [← Nat.pow_mod, ← Nat.pow_mul, Nat.mul_comm]
    rw [hsq]
    split
    · rename_i h0; rw [h0]; rfl
    · split
      · rw [Nat.mod_mul_mod, ← Nat.pow_succ]
        congr 2; omega
      · congr 2; omega

/-- Pratt's certificate: `fs` are the prime factors of `n - 1`, and `a` generates the units. -/
def pratt (n a : ℕ) (fs : List ℕ) : Bool :=
  fs.prod == n - 1 && decide (1 < n) && decide (n ≤ 2 ^ 256) && (powMod n a 256 (n - 1) == 1) && fs.all (fun f => powMod n a 256 ((n - 1) / f) != 1)

theorem prime_of_pratt {n : ℕ} (a : ℕ) (fs : List ℕ) (hfs : ∀ f ∈ fs, f.Prime) (h : pratt n a fs = true) : n.Prime := by
  unfold pratt at h
  simp only [Bool.and_eq_true, beq_iff_eq, decide_eq_true_eq, List.all_eq_true, bne_iff_ne] at h
  obtain ⟨⟨⟨⟨h1, h2⟩, h5⟩, h3⟩, h4⟩ := h
  have key : ∀ e, e < 2 ^ 256 → ((a : ZMod n) ^ e = 1 ↔ powMod n a 256 e = 1) := by
    intro e he
    rw [powMod_eq _ _ _ _ he, ← Nat.cast_one (R := ZMod n), ← Nat.cast_pow, ZMod.natCast_eq_natCast_iff', Nat.mod_eq_of_lt h2]
  refine lucas_primality n a ((key _ (by omega)).mpr h3) ?_
  intro q hq hd
  rw [← h1] at hd
  obtain ⟨f, hf, hqf⟩ := (Nat.Prime.prime hq).dvd_prod_iff.mp hd
  obtain rfl := (Nat.prime_dvd_prime_iff_eq hq (hfs f hf)).mp hqf
  have hlt : (n - 1) / q < 2 ^ 256 := Nat.lt_of_le_of_lt (Nat.div_le_self _ _) (by omega)
  exact fun e => h4 q hf ((key _ hlt).mp e)

theorem prime0 : Nat.Prime 65537 :=
  prime_of_pratt 3 [2, 2, 2, 2, 2, 2, 2, 2, 2, 2, 2, 2, 2, 2, 2, 2]
    (List.forall_mem_cons.mpr ⟨(by norm_num), List.forall_mem_cons.mpr ⟨(by norm_num), List.forall_mem_cons.mpr ⟨(by norm_num), List.forall_mem_cons.mpr ⟨(by norm_num), List.forall_mem_cons.mpr ⟨(by norm_num), List.forall_mem_cons.mpr ⟨(by norm_num), List.forall_mem_cons.mpr ⟨(by norm_num), List.forall_mem_cons.mpr ⟨(by norm_num), List.forall_mem_cons.mpr ⟨(by norm_num), List.forall_mem_cons.mpr ⟨(by norm_num), List.forall_mem_cons.mpr ⟨(by norm_num), List.forall_mem_cons.mpr ⟨(by norm_num), List.forall_mem_cons.mpr ⟨(by norm_num), List.forall_mem_cons.mpr ⟨(by norm_num), List.forall_mem_cons.mpr ⟨(by norm_num), List.forall_mem_cons.mpr ⟨(by norm_num), List.forall_mem_nil _⟩⟩⟩⟩⟩⟩⟩⟩⟩⟩⟩⟩⟩⟩⟩⟩)
    (by decide +kernel)

theorem prime1 : Nat.Prime 490463 :=
  prime_of_pratt 14 [2, 7, 53, 661]
    (List.forall_mem_cons.mpr ⟨(by norm_num), List.forall_mem_cons.mpr ⟨(by norm_num), List.forall_mem_cons.mpr ⟨(by norm_num), List.forall_mem_cons.mpr ⟨(by norm_num), List.forall_mem_nil _⟩⟩⟩⟩)
    (by decide +kernel)

theorem prime2 : Nat.Prime 6700417 :=
  prime_of_pratt 5 [2, 2, 2, 2, 2, 2, 2, 3, 17449]
    (List.forall_mem_cons.mpr ⟨(by norm_num), List.forall_mem_cons.mpr ⟨(by norm_num), List.forall_mem_cons.mpr ⟨(by norm_num), List.forall_mem_cons.mpr ⟨(by norm_num), List.forall_mem_cons.mpr ⟨(by norm_num), List.forall_mem_cons.mpr ⟨(by norm_num), List.forall_mem_cons.mpr ⟨(by norm_num), List.forall_mem_cons.mpr ⟨(by norm_num), List.forall_mem_cons.mpr ⟨(by norm_num), List.forall_mem_nil _⟩⟩⟩⟩⟩⟩⟩⟩⟩)
    (by decide +kernel)

theorem prime3 : Nat.Prime 204061199 :=
  prime_of_pratt 11 [2, 11, 23, 107, 3769]
    (List.forall_mem_cons.mpr ⟨(by norm_num), List.forall_mem_cons.mpr ⟨(by norm_num), List.forall_mem_cons.mpr ⟨(by norm_num), List.forall_mem_cons.mpr ⟨(by norm_num), List.forall_mem_cons.mpr ⟨(by norm_num), List.forall_mem_nil _⟩⟩⟩⟩⟩)
    (by decide +kernel)

theorem prime4 : Nat.Prime 34282281433 :=
  prime_of_pratt 17 [2, 2, 2, 3, 7, 204061199]
    (List.forall_mem_cons.mpr ⟨(by norm_num), List.forall_mem_cons.mpr ⟨(by norm_num), List.forall_mem_cons.mpr ⟨(by norm_num), List.forall_mem_cons.mpr ⟨(by norm_num), List.forall_mem_cons.mpr ⟨(by norm_num), List.forall_mem_cons.mpr ⟨prime3, List.forall_mem_nil _⟩⟩⟩⟩⟩⟩)
    (by decide +kernel)

theorem prime5 : Nat.Prime 66417393611 :=
  prime_of_pratt 6 [2, 5, 53, 173, 197, 3677]
    (List.forall_mem_cons.mpr ⟨(by norm_num), List.forall_mem_cons.mpr ⟨(by norm_num), List.forall_mem_cons.mpr ⟨(by norm_num), List.forall_mem_cons.mpr ⟨(by norm_num), List.forall_mem_cons.mpr ⟨(by norm_num), List.forall_mem_cons.mpr ⟨(by norm_num), List.forall_mem_nil _⟩⟩⟩⟩⟩⟩)
    (by decide +kernel)

theorem prime6 : Nat.Prime 11290956913871 :=
  prime_of_pratt 13 [2, 5, 17, 66417393611]
    (List.forall_mem_cons.mpr ⟨(by norm_num), List.forall_mem_cons.mpr ⟨(by norm_num), List.forall_mem_cons.mpr ⟨(by norm_num), List.forall_mem_cons.mpr ⟨prime5, List.forall_mem_nil _⟩⟩⟩⟩)
    (by decide +kernel)

theorem prime7 : Nat.Prime 78283 :=
  prime_of_pratt 3 [2, 3, 3, 4349]
    (List.forall_mem_cons.mpr ⟨(by norm_num), List.forall_mem_cons.mpr ⟨(by norm_num), List.forall_mem_cons.mpr ⟨(by norm_num), List.forall_mem_cons.mpr ⟨(by norm_num), List.forall_mem_nil _⟩⟩⟩⟩)
    (by decide +kernel)

theorem prime8 : Nat.Prime 704251 :=
  prime_of_pratt 2 [2, 3, 3, 5, 5, 5, 313]
    (List.forall_mem_cons.mpr ⟨(by norm_num), List.forall_mem_cons.mpr ⟨(by norm_num), List.forall_mem_cons.mpr ⟨(by norm_num), List.forall_mem_cons.mpr ⟨(by norm_num), List.forall_mem_cons.mpr ⟨(by norm_num), List.forall_mem_cons.mpr ⟨(by norm_num), List.forall_mem_cons.mpr ⟨(by norm_num), List.forall_mem_nil _⟩⟩⟩⟩⟩⟩⟩)
    (by decide +kernel)

theorem prime9 : Nat.Prime 46076956964474543 :=
  prime_of_pratt 5 [2, 23, 18169, 78283, 704251]
    (List.forall_mem_cons.mpr ⟨(by norm_num), List.forall_mem_cons.mpr ⟨(by norm_num), List.forall_mem_cons.mpr ⟨(by norm_num), List.forall_mem_cons.mpr ⟨prime7, List.forall_mem_cons.mpr ⟨prime8, List.forall_mem_nil _⟩⟩⟩⟩⟩)
    (by decide +kernel)

theorem prime10 : Nat.Prime 774023187263532362759620327192479577272145303 :=
  prime_of_pratt 3 [2, 3, 3, 2411, 34282281433, 11290956913871, 46076956964474543]
    (List.forall_mem_cons.mpr ⟨(by norm_num), List.forall_mem_cons.mpr ⟨(by norm_num), List.forall_mem_cons.mpr ⟨(by norm_num), List.forall_mem_cons.mpr ⟨(by norm_num), List.forall_mem_cons.mpr ⟨prime4, List.forall_mem_cons.mpr ⟨prime6, List.forall_mem_cons.mpr ⟨prime9, List.forall_mem_nil _⟩⟩⟩⟩⟩⟩⟩)
    (by decide +kernel)

theorem prime11 : Nat.Prime 835945042244614951780389953367877943453916927241 :=
  prime_of_pratt 11 [2, 2, 2, 3, 3, 3, 5, 774023187263532362759620327192479577272145303]
    (List.forall_mem_cons.mpr ⟨(by norm_num), List.forall_mem_cons.mpr ⟨(by norm_num), List.forall_mem_cons.mpr ⟨(by norm_num), List.forall_mem_cons.mpr ⟨(by norm_num), List.forall_mem_cons.mpr ⟨(by norm_num), List.forall_mem_cons.mpr ⟨(by norm_num), List.forall_mem_cons.mpr ⟨(by norm_num), List.forall_mem_cons.mpr ⟨prime10, List.forall_mem_nil _⟩⟩⟩⟩⟩⟩⟩⟩)
    (by decide +kernel)

/-- The size of the field: 2^256 - 2^224 + 2^192 + 2^96 - 1. -/
@[irreducible] def p : ℕ := 0xffffffff00000001000000000000000000000000ffffffffffffffffffffffff

theorem prime_p : Nat.Prime p :=
  prime_of_pratt 6 [2, 3, 5, 5, 17, 257, 641, 1531, 65537, 490463, 6700417, 835945042244614951780389953367877943453916927241]
    (List.forall_mem_cons.mpr ⟨(by norm_num), List.forall_mem_cons.mpr ⟨(by norm_num), List.forall_mem_cons.mpr ⟨(by norm_num), List.forall_mem_cons.mpr ⟨(by norm_num), List.forall_mem_cons.mpr ⟨(by norm_num), List.forall_mem_cons.mpr ⟨(by norm_num), List.forall_mem_cons.mpr ⟨(by norm_num), List.forall_mem_cons.mpr ⟨(by norm_num), List.forall_mem_cons.mpr ⟨prime0, List.forall_mem_cons.mpr ⟨prime1, List.forall_mem_cons.mpr ⟨prime2, List.forall_mem_cons.mpr ⟨prime11, List.forall_mem_nil _⟩⟩⟩⟩⟩⟩⟩⟩⟩⟩⟩⟩)
    (by decide +kernel)

theorem prime13 : Nat.Prime 9350987 :=
  prime_of_pratt 2 [2, 17, 229, 1201]
    (List.forall_mem_cons.mpr ⟨(by norm_num), List.forall_mem_cons.mpr ⟨(by norm_num), List.forall_mem_cons.mpr ⟨(by norm_num), List.forall_mem_cons.mpr ⟨(by norm_num), List.forall_mem_nil _⟩⟩⟩⟩)
    (by decide +kernel)

theorem prime14 : Nat.Prime 187019741 :=
  prime_of_pratt 2 [2, 2, 5, 9350987]
    (List.forall_mem_cons.mpr ⟨(by norm_num), List.forall_mem_cons.mpr ⟨(by norm_num), List.forall_mem_cons.mpr ⟨(by norm_num), List.forall_mem_cons.mpr ⟨prime13, List.forall_mem_nil _⟩⟩⟩⟩)
    (by decide +kernel)

theorem prime15 : Nat.Prime 311245691 :=
  prime_of_pratt 2 [2, 5, 7, 17, 29, 29, 311]
    (List.forall_mem_cons.mpr ⟨(by norm_num), List.forall_mem_cons.mpr ⟨(by norm_num), List.forall_mem_cons.mpr ⟨(by norm_num), List.forall_mem_cons.mpr ⟨(by norm_num), List.forall_mem_cons.mpr ⟨(by norm_num), List.forall_mem_cons.mpr ⟨(by norm_num), List.forall_mem_cons.mpr ⟨(by norm_num), List.forall_mem_nil _⟩⟩⟩⟩⟩⟩⟩)
    (by decide +kernel)

theorem prime16 : Nat.Prime 622491383 :=
  prime_of_pratt 5 [2, 311245691]
    (List.forall_mem_cons.mpr ⟨(by norm_num), List.forall_mem_cons.mpr ⟨prime15, List.forall_mem_nil _⟩⟩)
    (by decide +kernel)

theorem prime17 : Nat.Prime 126241 :=
  prime_of_pratt 7 [2, 2, 2, 2, 2, 3, 5, 263]
    (List.forall_mem_cons.mpr ⟨(by norm_num), List.forall_mem_cons.mpr ⟨(by norm_num), List.forall_mem_cons.mpr ⟨(by norm_num), List.forall_mem_cons.mpr ⟨(by norm_num), List.forall_mem_cons.mpr ⟨(by norm_num), List.forall_mem_cons.mpr ⟨(by norm_num), List.forall_mem_cons.mpr ⟨(by norm_num), List.forall_mem_cons.mpr ⟨(by norm_num), List.forall_mem_nil _⟩⟩⟩⟩⟩⟩⟩⟩)
    (by decide +kernel)

theorem prime18 : Nat.Prime 104471 :=
  prime_of_pratt 11 [2, 5, 31, 337]
    (List.forall_mem_cons.mpr ⟨(by norm_num), List.forall_mem_cons.mpr ⟨(by norm_num), List.forall_mem_cons.mpr ⟨(by norm_num), List.forall_mem_cons.mpr ⟨(by norm_num), List.forall_mem_nil _⟩⟩⟩⟩)
    (by decide +kernel)

theorem prime19 : Nat.Prime 3969899 :=
  prime_of_pratt 2 [2, 19, 104471]
    (List.forall_mem_cons.mpr ⟨(by norm_num), List.forall_mem_cons.mpr ⟨(by norm_num), List.forall_mem_cons.mpr ⟨prime18, List.forall_mem_nil _⟩⟩⟩)
    (by decide +kernel)

theorem prime20 : Nat.Prime 1002328039319 :=
  prime_of_pratt 19 [2, 126241, 3969899]
    (List.forall_mem_cons.mpr ⟨(by norm_num), List.forall_mem_cons.mpr ⟨prime17, List.forall_mem_cons.mpr ⟨prime19, List.forall_mem_nil _⟩⟩⟩)
    (by decide +kernel)

theorem prime21 : Nat.Prime 155317 :=
  prime_of_pratt 5 [2, 2, 3, 7, 43, 43]
    (List.forall_mem_cons.mpr ⟨(by norm_num), List.forall_mem_cons.mpr ⟨(by norm_num), List.forall_mem_cons.mpr ⟨(by norm_num), List.forall_mem_cons.mpr ⟨(by norm_num), List.forall_mem_cons.mpr ⟨(by norm_num), List.forall_mem_cons.mpr ⟨(by norm_num), List.forall_mem_nil _⟩⟩⟩⟩⟩⟩)
    (by decide +kernel)

theorem prime22 : Nat.Prime 191039911 :=
  prime_of_pratt 3 [2, 3, 5, 41, 155317]
    (List.forall_mem_cons.mpr ⟨(by norm_num), List.forall_mem_cons.mpr ⟨(by norm_num), List.forall_mem_cons.mpr ⟨(by norm_num), List.forall_mem_cons.mpr ⟨(by norm_num), List.forall_mem_cons.mpr ⟨prime21, List.forall_mem_nil _⟩⟩⟩⟩⟩)
    (by decide +kernel)

theorem prime23 : Nat.Prime 208150935158385979 :=
  prime_of_pratt 2 [2, 3, 11, 43, 127, 3023, 191039911]
    (List.forall_mem_cons.mpr ⟨(by norm_num), List.forall_mem_cons.mpr ⟨(by norm_num), List.forall_mem_cons.mpr ⟨(by norm_num), List.forall_mem_cons.mpr ⟨(by norm_num), List.forall_mem_cons.mpr ⟨(by norm_num), List.forall_mem_cons.mpr ⟨(by norm_num), List.forall_mem_cons.mpr ⟨prime22, List.forall_mem_nil _⟩⟩⟩⟩⟩⟩⟩)
    (by decide +kernel)

theorem prime24 : Nat.Prime 2624747550333869278416773953 :=
  prime_of_pratt 7 [2, 2, 2, 2, 2, 2, 3, 3, 1297, 16879, 208150935158385979]
    (List.forall_mem_cons.mpr ⟨(by norm_num), List.forall_mem_cons.mpr ⟨(by norm_num), List.forall_mem_cons.mpr ⟨(by norm_num), List.forall_mem_cons.mpr ⟨(by norm_num), List.forall_mem_cons.mpr ⟨(by norm_num), List.forall_mem_cons.mpr ⟨(by norm_num), List.forall_mem_cons.mpr ⟨(by norm_num), List.forall_mem_cons.mpr ⟨(by norm_num), List.forall_mem_cons.mpr ⟨(by norm_num), List.forall_mem_cons.mpr ⟨(by norm_num), List.forall_mem_cons.mpr ⟨prime23, List.forall_mem_nil _⟩⟩⟩⟩⟩⟩⟩⟩⟩⟩⟩)
    (by decide +kernel)

/-- The order of the group. -/
@[irreducible] def q : ℕ := 0xffffffff00000000ffffffffffffffffbce6faada7179e84f3b9cac2fc632551

theorem prime_q : Nat.Prime q :=
  prime_of_pratt 7 [2, 2, 2, 2, 3, 71, 131, 373, 3407, 17449, 38189, 187019741, 622491383, 1002328039319, 2624747550333869278416773953]
    (List.forall_mem_cons.mpr ⟨(by norm_num), List.forall_mem_cons.mpr ⟨(by norm_num), List.forall_mem_cons.mpr ⟨(by norm_num), List.forall_mem_cons.mpr ⟨(by norm_num), List.forall_mem_cons.mpr ⟨(by norm_num), List.forall_mem_cons.mpr ⟨(by norm_num), List.forall_mem_cons.mpr ⟨(by norm_num), List.forall_mem_cons.mpr ⟨(by norm_num), List.forall_mem_cons.mpr ⟨(by norm_num), List.forall_mem_cons.mpr ⟨(by norm_num), List.forall_mem_cons.mpr ⟨(by norm_num), List.forall_mem_cons.mpr ⟨prime14, List.forall_mem_cons.mpr ⟨prime16, List.forall_mem_cons.mpr ⟨prime20, List.forall_mem_cons.mpr ⟨prime24, List.forall_mem_nil _⟩⟩⟩⟩⟩⟩⟩⟩⟩⟩⟩⟩⟩⟩⟩)
    (by decide +kernel)

end Migp.P256
