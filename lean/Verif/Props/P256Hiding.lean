import Verif.Props.P256
/-!
# C91: what a request tells the server
-/
namespace Migp.Props
open P256 Spec

/-- C91: a request tells nothing about the credential but the bucket: whatever credential it is for (if its hash is not infinity), each
point but infinity is sent for exactly one blind but zero. So with blinds drawn evenly all points are equally likely, for every
credential. -/
theorem C91_hiding {cfg : Config} {c : Client} (hc : NewClient P256.ext cfg = .ok c) (u p : Bytes) (hu : u.length ≤ 65536)
    (hp : p.length ≤ 65536) (h0 : 0 ≤ cfg.bucketIDBitSize) (h32 : cfg.bucketIDBitSize ≤ 32)
    (hH : P256.hashToElement (Spec.oprfInput P256.ext cfg.slowHasherID u p) ≠ 0) (P : W.Point) (hP : P ≠ 0) :
    ∃! r : ZMod c.suite.q, r ≠ 0 ∧
      ∃ req ctx, c.request P256.ext u p r = .ok (req, ctx) ∧ Compressed P req.blindElement := by
  have hq : Fact (P256.q.Prime) := ⟨C91_group.1⟩
  have hsu := client_suite hc
  have hq' : c.suite.q = P256.q := by rw [hsu]; rfl
  obtain ⟨n, hn⟩ := (C91_group.2.2 _ hH).2 P
  have key : ∀ r : ZMod c.suite.q, (∃ req ctx, c.request P256.ext u p r = .ok (req, ctx) ∧ Compressed P req.blindElement) ↔
      r = (n : ZMod c.suite.q) := by
    intro r
    have hval : r = (n : ZMod c.suite.q) ↔
        r.val • P256.hashToElement (Spec.oprfInput P256.ext cfg.slowHasherID u p) = P := by
      rw [hn, nsmul_eq_nsmul_iff_modEq, (C91_group.2.2 _ hH).1, ← hq', ← ZMod.natCast_eq_natCast_iff]
      have : NeZero c.suite.q := ⟨by rw [hq']; exact hq.out.ne_zero⟩
      rw [ZMod.natCast_zmod_val]
    obtain ⟨id, -, -, h'⟩ := request_ok cfg c hc u p hu hp h0 h32 r
    rw [hval]
    constructor
    · rintro ⟨req, ctx, h, hcP⟩
      obtain ⟨H, Q, rfl, rfl, hQ, -, -⟩ := C91_request hc u p r req ctx h
      exact C91_encodings.1 _ _ _ (.compressed hQ) (.compressed hcP)
    · intro e
      obtain ⟨H, Q, rfl, rfl, hQ, -, -⟩ := C91_request hc u p r _ _ h'
      exact ⟨_, _, h', e ▸ hQ⟩
  refine ⟨(n : ZMod c.suite.q), ⟨?_, (key _).mpr rfl⟩, fun r hr => (key r).mp hr.2⟩
  intro e
  apply hP
  rw [hn]
  have hd : P256.q ∣ n := hq' ▸ (ZMod.natCast_eq_zero_iff n c.suite.q).mp e
  have := (C91_group.2.2 _ hH).1
  exact addOrderOf_dvd_iff_nsmul_eq_zero.mp (this ▸ hd)

/-- Two points with different first coordinates do not cancel. -/
theorem add_ne_zero_of_fst {x y x' y' : F} {h : W.Nonsingular x y} {h' : W.Nonsingular x' y'} (hx : x ≠ x') :
    WeierstrassCurve.Affine.Point.some x y h + WeierstrassCurve.Affine.Point.some x' y' h' ≠ (0 : W.Point) := by
  intro e
  have e1 := eq_neg_of_add_eq_zero_left e
  rw [WeierstrassCurve.Affine.Point.neg_some] at e1
  injection e1 with e2 e3
  exact hx e2

@[irreducible] def hx0 : ℕ := 0x247d61e6116db22232a5c0f78900c954cd08bd0dd6e0023e312e7acaa8462707
@[irreducible] def hy0 : ℕ := 0xa29d01cdc1637ca653ba460a75d1800b26f13db7e86ba7154d01b3874281137e
@[irreducible] def hx1 : ℕ := 0xd9f0c2bb86e388502023db4e2767126bd3830f35a4db4e539c767e7289ed9b7b
@[irreducible] def hy1 : ℕ := 0xc16b7ea5c74835609b2a182344b81a97b5f652fd7dd32a953ba09e387441546b

/-- The credential "user", "password1" does not hash to infinity, without the slow hash. -/
theorem example_hash_ne_zero : P256.hashToElement (Spec.oprfInput P256.ext 0 (ascii "user") (ascii "password1")) ≠ 0 := by
  have hin : Spec.oprfInput P256.ext 0 (ascii "user") (ascii "password1") = [0, 4] ++ ascii "user" ++ [0, 9] ++ ascii "password1" := by
    unfold Spec.oprfInput Spec.slowHash
    rw [if_pos rfl]
    decide +kernel
  rw [hin]
  unfold P256.hashToElement hashToCurve
  obtain ⟨n1, e1⟩ := map_eq (toField (ascii "HashToGroup-" ++ context) ([0, 4] ++ ascii "user" ++ [0, 9] ++ ascii "password1") p 2 0)
    (x := hx0) (y := hy0) (by decide +kernel)
  obtain ⟨n2, e2⟩ := map_eq (toField (ascii "HashToGroup-" ++ context) ([0, 4] ++ ascii "user" ++ [0, 9] ++ ascii "password1") p 2 1)
    (x := hx1) (y := hy1) (by decide +kernel)
  rw [e1, e2]
  exact add_ne_zero_of_fst (fun e => absurd (cast_eq_iff.mp e) (by decide +kernel))

/-- C91_hiding: a client without a slow hash asks for "user" and "password1": for exactly one blind it sends the base point of
the curve. -/
example : ∃ c, NewClient P256.ext { DefaultConfig with slowHasherID := 0 } = .ok c ∧
    ∃! r : ZMod c.suite.q, r ≠ 0 ∧ ∃ req ctx, c.request P256.ext (ascii "user") (ascii "password1") r = .ok (req, ctx) ∧
      Compressed G req.blindElement := by
  have hok : (NewClient P256.ext { DefaultConfig with slowHasherID := 0 }).IsOk :=
    (C12_newClient_iff _).mpr ⟨by decide, by decide, by decide, by
      show (P256.ext.suites oprfP256).isSome = true
      rw [suites_eq]; rfl⟩
  obtain ⟨c, hc⟩ := hok
  exact ⟨c, hc, C91_hiding hc _ _ (by decide) (by decide) (by decide) (by decide) example_hash_ne_zero _ G_ne_zero⟩

end Migp.Props
