import Verif.Go.Heap
import Mathlib.Logic.Function.Basic
import Mathlib.Logic.Relation
/-!
# Goroutines that share memory

Any number of goroutines, each running code on the same heap. A step is a single memory access of one of
them; which one is next is up to the scheduler. (Go's memory model promises this - that a program behaves like some
interleaving of its accesses - for programs without data races, and it is proved that there are none.)
-/
namespace Migp

/-- The memory and what each goroutine still has to do. -/
structure Par (ι : Type) (α : ι → Type) where
  heap : Heap
  code : (t : ι) → HM (α t)

/-- One memory access of one goroutine. -/
inductive Par.Step {ι : Type} [DecidableEq ι] {α : ι → Type} : Par ι α → Par ι α → Prop
  | alloc (s : Par ι α) (t : ι) (b : Bytes) (k : Nat → HM (α t)) : s.code t = .alloc b k →
      Step s ⟨s.heap ++ [b], Function.update s.code t (k s.heap.length)⟩
  | read (s : Par ι α) (t : ι) (a i : Nat) (k : UInt8 → HM (α t)) : s.code t = .read a i k →
      Step s ⟨s.heap, Function.update s.code t (k (s.heap.byte a i))⟩
  | write (s : Par ι α) (t : ι) (a i : Nat) (v : UInt8) (k : HM (α t)) : s.code t = .write a i v k →
      Step s ⟨s.heap.setByte a i v, Function.update s.code t k⟩

/-- What can come of starting the goroutines on heap `h`. -/
def Par.Reaches {ι : Type} [DecidableEq ι] {α : ι → Type} (h : Heap) (code : (t : ι) → HM (α t)) (s : Par ι α) : Prop :=
  Relation.ReflTransGen Par.Step ⟨h, code⟩ s

/-- The next access is a write to byte `i` of array `a`. -/
def HM.Writes {α : Type} (m : HM α) (a i : Nat) : Prop := ∃ v k, m = .write a i v k

/-- The next access is a read of or a write to byte `i` of array `a`. -/
def HM.Accesses {α : Type} (m : HM α) (a i : Nat) : Prop := (∃ k, m = .read a i k) ∨ m.Writes a i

end Migp
