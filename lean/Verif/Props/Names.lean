import Verif.Lemmas.Utf8
import Verif.Props.Config
/-!
# C05, C12: what is shown to users, and the default configuration
-/
namespace Migp.Props
open Migp.Spec

/-- C05: the names of the flags and of the statuses, for every value. -/
theorem C05_names (x : UInt8) :
    MetadataType.toString x =
      ["dummy metadata", "breached password", "similar password", "breached username"].getD x.toNat "Unknown metadata type" ∧
    BreachStatus.toString x = ["password not in breach", "password in breach", "similar password in breach",
      "username in breach"].getD x.toNat "unknown breach status" := by
  have key : ∀ n : Fin 256, MetadataType.toString (UInt8.ofNat n.val) =
      ["dummy metadata", "breached password", "similar password", "breached username"].getD n.val "Unknown metadata type" ∧
    BreachStatus.toString (UInt8.ofNat n.val) = ["password not in breach", "password in breach",
      "similar password in breach", "username in breach"].getD n.val "unknown breach status" := by decide +kernel
  have := key ⟨x.toNat, x.toNat_lt⟩
  simpa using this

/-- C05: the error for an invalid flag, which is reported before anything else is done (even for credentials that would
be a panic), names the character whose number the flag is. -/
theorem C05_error_text {E : Ext} (s : Server) (u p : Bytes) (flag : MetadataType) (m : Bytes) (hf : 3 < flag.toNat) :
    s.encryptBucketEntry E u p flag m = .err (.invalidFlag (utf8 (Char.ofNat flag.toNat))) := by
  rw [encryptBucketEntry_invalid s u p flag m (by omega)]
  have key : ∀ n : Fin 256, runeString (UInt8.ofNat n.val) = utf8 (Char.ofNat n.val) := by decide +kernel
  have := key ⟨flag.toNat, flag.toNat_lt⟩
  simp only [UInt8.ofNat_toNat] at this
  rw [this]

/-- C12: the default configuration, in numbers: version 1, 20 bits, the only bucket hasher and encryptor, scrypt, and
suite 3 (P-256). -/
theorem C12_default_values : DefaultConfig.version.toNat = 1 ∧ DefaultConfig.bucketIDBitSize = 20 ∧
    DefaultConfig.bucketHasherID.toNat = 1 ∧ DefaultConfig.slowHasherID.toNat = 1 ∧
    DefaultConfig.bucketEncryptorID.toNat = 1 ∧ DefaultConfig.oprfSuite.toNat = 3 := by decide

end Migp.Props
