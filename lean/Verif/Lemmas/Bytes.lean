import Verif.Go.Endian
/-! # Lemmas on byte buffers and big-endian integers -/
namespace Migp

@[simp] theorem makeBytes_length (n : Nat) : (makeBytes n).length = n := by simp [makeBytes]

theorem makeBytes_add (m n : Nat) : makeBytes (m + n) = makeBytes m ++ makeBytes n := by
  simp [makeBytes]

/-- Copying `s` over a middle part of equal length. -/
theorem copyAt_mid (a b c s : Bytes) (off : Nat) (ho : off = a.length) (h : b.length = s.length) :
    copyAt (a ++ (b ++ c)) off s = .ok (a ++ (s ++ c)) := by
  subst ho
  unfold copyAt
  rw [if_pos (by simp)]
  congr 1
  rw [List.take_left, List.drop_append]
  have h1 : List.take ((a ++ (b ++ c)).length - a.length) s = s := by
    apply List.take_of_length_le; simp; omega
  have h2 : List.drop (a.length + s.length) a = [] := by
    apply List.drop_of_length_le; omega
  have h3 : a.length + s.length - a.length = b.length := by omega
  rw [h1, h2, h3, List.drop_left]
  simp

theorem copyAt_end (a b s : Bytes) (off : Nat) (ho : off = a.length) (h : b.length = s.length) :
    copyAt (a ++ b) off s = .ok (a ++ s) := by
  have := copyAt_mid a b [] s off ho h
  simpa using this

theorem copyAt_all (b s : Bytes) (h : b.length = s.length) : copyAt b 0 s = .ok s := by
  simpa using copyAt_end [] b s 0 rfl h

theorem copyAt_start (b c s : Bytes) (h : b.length = s.length) :
    copyAt (b ++ c) 0 s = .ok (s ++ c) := by
  simpa using copyAt_mid [] b c s 0 rfl h

@[simp] theorem be16_length (v : UInt16) : (be16 v).length = 2 := rfl
@[simp] theorem be32_length (v : UInt32) : (be32 v).length = 4 := rfl

theorem putUint16At_mid (a b c : Bytes) (off : Nat) (v : UInt16) (ho : off = a.length)
    (h : b.length = 2) : putUint16At (a ++ (b ++ c)) off v = .ok (a ++ (be16 v ++ c)) := by
  unfold putUint16At
  rw [if_pos (by simp; omega)]
  exact copyAt_mid a b c _ off ho (by simp [h])

theorem putUint32At_mid (a b c : Bytes) (off : Nat) (v : UInt32) (ho : off = a.length)
    (h : b.length = 4) : putUint32At (a ++ (b ++ c)) off v = .ok (a ++ (be32 v ++ c)) := by
  unfold putUint32At
  rw [if_pos (by simp; omega)]
  exact copyAt_mid a b c _ off ho (by simp [h])

theorem beUint32_be32 (v : UInt32) (rest : Bytes) : beUint32 (be32 v ++ rest) = .ok v := by
  simp only [be32, List.cons_append, List.nil_append, beUint32]
  congr 1
  apply UInt32.toNat_inj.mp
  have := v.toNat_lt
  simp only [UInt32.toNat_ofNat', UInt8.toNat_ofNat']
  omega

theorem be32_inj {v w : UInt32} (h : be32 v = be32 w) : v = w := by
  have h1 := beUint32_be32 v []
  have h2 := beUint32_be32 w []
  rw [h, h2] at h1
  injection h1 with h1
  exact h1.symm

theorem be16_toNat (n : Nat) (h : n < 65536) :
    be16 (UInt16.ofNat n) = [UInt8.ofNat (n / 256), UInt8.ofNat n] := by
  simp only [be16, UInt16.toNat_ofNat', List.cons.injEq, and_true]
  have : n % 65536 = n := Nat.mod_eq_of_lt h
  constructor <;> congr 1 <;> omega

theorem be16_inj {m n : Nat} (hm : m < 65536) (hn : n < 65536)
    (h : be16 (UInt16.ofNat m) = be16 (UInt16.ofNat n)) : m = n := by
  rw [be16_toNat m hm, be16_toNat n hn] at h
  simp only [List.cons.injEq, and_true] at h
  obtain ⟨h1, h2⟩ := h
  have h1 := congrArg UInt8.toNat h1
  have h2 := congrArg UInt8.toNat h2
  simp only [UInt8.toNat_ofNat'] at h1 h2
  omega

end Migp
