import Verif.Model.Exchange
import Verif.Example.Ext
/-!
# A concrete server and client

Built with the default configuration over `Example.ext`, used to show that the hypotheses of theorems are
met.
-/
namespace Migp.Example

/-- The default configuration with private key 7. -/
def cfg : ServerConfig := DefaultServerConfig ⟨7⟩

/-- The server built from `cfg`. -/
def server : Server :=
  { version := 1, bucketIDBitSize := 20, bucketHasher := NewSHA256BucketHasher,
    bucketEncryptor := .hkdfSHA256, slowHasher := NewScryptSlowHasher, suite := toySuite,
    oprfSuite := 3, privateKey := ⟨7⟩ }

/-- The client built from the public part of `cfg`. -/
def client : Client :=
  { version := 1, bucketIDBitSize := 20, bucketHasher := NewSHA256BucketHasher,
    bucketEncryptor := .hkdfSHA256, slowHasher := NewScryptSlowHasher, suite := toySuite,
    oprfSuite := 3 }

theorem newServer_eq : NewServer ext cfg = .ok server := rfl
theorem newClient_eq : NewClient ext cfg.toConfig = .ok client := rfl

end Migp.Example
