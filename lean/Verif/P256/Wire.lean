import Verif.Spec.P256
import Verif.P256.Element
/-!
# The encodings of the specification and of the code
-/
namespace Migp.P256
open WeierstrassCurve Spec

theorem ofBytes_digits (b : Bytes) : ofBytes b = Nat.ofDigits 256 (b.reverse.map UInt8.toNat) := by
  induction b using List.reverseRecOn with
  | nil => unfold ofBytes; rfl
  | append_singleton b x ih =>
    rw [ofBytes_concat, List.reverse_append, List.reverse_singleton, List.singleton_append, List.map_cons, Nat.ofDigits_cons, ih]
    ring

theorem bigEndian_iff (b : Bytes) {n : ℕ} (h : n < p) : BigEndian b n ↔ b = toBytes 32 n := by
  unfold BigEndian
  rw [← ofBytes_digits]
  constructor
  · rintro ⟨h1, rfl⟩
    rw [← h1, toBytes_ofBytes]
  · rintro rfl
    exact ⟨toBytes_length _ _, ofBytes_toBytes _ _ (Nat.lt_trans h p_lt)⟩

theorem compressed_iff (P : W.Point) (b : Bytes) : Compressed P b ↔ b = ser P := by
  constructor
  · intro h
    cases h with
    | infinity => rfl
    | even h1 h2 =>
      rw [ser_some, if_neg (by rw [Nat.even_iff] at h1; omega), (bigEndian_iff _ (ZMod.val_lt _)).mp h2]
    | odd h1 h2 =>
      rw [ser_some, if_pos (Nat.odd_iff.mp h1), (bigEndian_iff _ (ZMod.val_lt _)).mp h2]
  · rintro rfl
    rcases P with _ | ⟨x, y, hn⟩
    · exact .infinity
    · rw [ser_some]
      split
      · rename_i h
        exact .odd (Nat.odd_iff.mpr h) ((bigEndian_iff _ (ZMod.val_lt _)).mpr rfl)
      · rename_i h
        exact .even (Nat.even_iff.mpr (by omega)) ((bigEndian_iff _ (ZMod.val_lt _)).mpr rfl)

theorem wireForm_iff (P : W.Point) (b : Bytes) : WireForm P b ↔ de b = some P := by
  rw [de_eq_some_iff]
  constructor
  · intro h
    cases h with
    | compressed h => exact .inl ((compressed_iff _ _).mp h)
    | full h1 h2 =>
      refine .inr ⟨_, _, _, rfl, ?_⟩
      rw [(bigEndian_iff _ (ZMod.val_lt _)).mp h1, (bigEndian_iff _ (ZMod.val_lt _)).mp h2]
      rfl
  · rintro (h | ⟨x, y, hn, rfl, rfl⟩)
    · exact .compressed ((compressed_iff _ _).mpr h)
    · exact .full ((bigEndian_iff _ (ZMod.val_lt _)).mpr rfl) ((bigEndian_iff _ (ZMod.val_lt _)).mpr rfl)

end Migp.P256
