import Verif.Go.Ext
import Mathlib.GroupTheory.SpecificGroups.Cyclic
/-!
# A `Suite` from any group of prime order

`Suite` writes group elements as their discrete logarithms. This file justifies it: for every group of prime
order with `circl/group`'s operations there is a `Suite` whose four protocol functions compute the same byte
strings as the library does with group elements, in which a scalar multiplies an element by repeated addition.
-/
namespace Migp

/-- The operations of `circl/group` that `circl/oprf` uses, over a group `G` (written additively) of prime
order. -/
structure GroupOps (G : Type) [AddCommGroup G] where
  q : ℕ
  prime : Fact q.Prime
  card : Nat.card G = q
  hashToElement : Bytes → G
  hashToScalar : Bytes → ZMod q
  ser : G → Bytes
  de : Bytes → Option G
  finalizeHash : Bytes → Bytes → Bytes → Bytes
  elemLen : ℕ
  de_ser : ∀ g, de (ser g) = some g
  ser_len : ∀ g, g ≠ 0 → (ser g).length = elemLen

namespace GroupOps

variable {G : Type} [AddCommGroup G] (O : GroupOps G)

/-- `Element.Mul(element, scalar)` -/
def mul (k : ZMod O.q) (g : G) : G := k.val • g

/-- `oprfClient.Request` for one input and a given blind. -/
def blind (input : Bytes) (r : ZMod O.q) : Bytes := O.ser (O.mul r (O.hashToElement input))

/-- `1 / (key + HashToScalar(info))` -/
def secretFromInfo (key : PrivateKey) (info : Bytes) : Res (ZMod O.q) :=
  haveI := O.prime
  if (key.k : ZMod O.q) + O.hashToScalar info = 0 then .err .oprfInverseZero
  else .ok ((key.k : ZMod O.q) + O.hashToScalar info)⁻¹

/-- `oprfServer.Evaluate` for one element. -/
def evaluate (key : PrivateKey) (blinded info : Bytes) : Res Bytes := do
  let tInv ← O.secretFromInfo key info
  match O.de blinded with
  | none => .err .oprfElement
  | some p => .ok (O.ser (O.mul tInv p))

/-- `oprfServer.FullEvaluate` -/
def fullEvaluate (key : PrivateKey) (input info : Bytes) : Res Bytes := do
  let tInv ← O.secretFromInfo key info
  .ok (O.finalizeHash input info (O.ser (O.mul tInv (O.hashToElement input))))

/-- `oprfClient.Finalize` for one element. -/
def clientFinalize (input : Bytes) (r : ZMod O.q) (evaluated info : Bytes) : Res Bytes :=
  haveI := O.prime
  match O.de evaluated with
  | none => .err .oprfElement
  | some z => .ok (O.finalizeHash input info (O.ser (O.mul r⁻¹ z)))

theorem exists_equiv : Nonempty (ZMod O.q ≃+ G) := by
  have := O.prime
  have : IsAddCyclic G := isAddCyclic_of_prime_card O.card
  exact ⟨O.card ▸ zmodAddCyclicAddEquiv ‹IsAddCyclic G›⟩

/-- The discrete logarithm to some base. -/
noncomputable def dlog : ZMod O.q ≃+ G := O.exists_equiv.some

end GroupOps

/-- The suite of a group of prime order. -/
noncomputable def Suite.ofGroup {G : Type} [AddCommGroup G] (O : GroupOps G) : Suite where
  q := O.q
  prime := O.prime
  hashToElement b := O.dlog.symm (O.hashToElement b)
  hashToScalar := O.hashToScalar
  ser x := O.ser (O.dlog x)
  de b := (O.de b).map O.dlog.symm
  finalizeHash := O.finalizeHash
  elemLen := O.elemLen
  de_ser g := by simp [O.de_ser]
  ser_len g hg := O.ser_len _ (by simpa using hg)

namespace GroupOps

variable {G : Type} [AddCommGroup G] (O : GroupOps G)

theorem dlog_mul (k x : ZMod O.q) : O.dlog (k * x) = O.mul k (O.dlog x) := by
  have := O.prime
  unfold GroupOps.mul
  rw [← map_nsmul]
  congr 1
  rw [nsmul_eq_mul, ZMod.natCast_val, ZMod.cast_id', id]

/-- The suite blinds as the group does. -/
theorem ofGroup_blind (input : Bytes) (r : ZMod O.q) :
    (Suite.ofGroup O).blind input r = O.blind input r := by
  show O.ser (O.dlog (r * O.dlog.symm _)) = _
  rw [dlog_mul, AddEquiv.apply_symm_apply]
  rfl

theorem ofGroup_secret (key : PrivateKey) (info : Bytes) :
    (Suite.ofGroup O).secretFromInfo key info = O.secretFromInfo key info := rfl

theorem ofGroup_de (b : Bytes) : (Suite.ofGroup O).de b = (O.de b).map O.dlog.symm := rfl

/-- The suite evaluates as the group does. -/
theorem ofGroup_evaluate (key : PrivateKey) (blinded info : Bytes) :
    (Suite.ofGroup O).evaluate key blinded info = O.evaluate key blinded info := by
  unfold Suite.evaluate GroupOps.evaluate
  rw [ofGroup_secret]
  cases O.secretFromInfo key info with
  | err e => rfl
  | panic p => rfl
  | ok t =>
    simp only [Res.ok_bind, ofGroup_de]
    cases O.de blinded with
    | none => rfl
    | some p =>
      refine congrArg (fun x => Res.ok (O.ser x)) ?_
      exact (O.dlog_mul t (O.dlog.symm p)).trans (by rw [AddEquiv.apply_symm_apply])

/-- The suite evaluates inputs as the group does. -/
theorem ofGroup_fullEvaluate (key : PrivateKey) (input info : Bytes) :
    (Suite.ofGroup O).fullEvaluate key input info = O.fullEvaluate key input info := by
  unfold Suite.fullEvaluate GroupOps.fullEvaluate
  rw [ofGroup_secret]
  cases O.secretFromInfo key info with
  | err e => rfl
  | panic p => rfl
  | ok t =>
    show Res.ok (O.finalizeHash input info (O.ser (O.dlog (t * O.dlog.symm _)))) = _
    rw [dlog_mul, AddEquiv.apply_symm_apply]
    rfl

/-- The suite unblinds as the group does. -/
theorem ofGroup_clientFinalize (input : Bytes) (r : ZMod O.q) (evaluated info : Bytes) :
    (Suite.ofGroup O).clientFinalize input r evaluated info = O.clientFinalize input r evaluated info := by
  unfold Suite.clientFinalize GroupOps.clientFinalize
  simp only [ofGroup_de]
  have := O.prime
  cases O.de evaluated with
  | none => rfl
  | some z =>
    refine congrArg (fun x => Res.ok (O.finalizeHash input info (O.ser x))) ?_
    exact (O.dlog_mul r⁻¹ (O.dlog.symm z)).trans (by rw [AddEquiv.apply_symm_apply])

end GroupOps

end Migp
