import Verif.Go.Hkdf
import Verif.Go.Sha256
/-!
# Test vectors for the model of HMAC and HKDF

RFC 4231 and RFC 5869, with the SHA-256 of `Verif.Go.Sha256`. These are tests of the transcription; what the theorems use is
`hmac_eq` and `hkdfFill_eq`, which hold for any hash.
-/
namespace Migp

/-- RFC 4231, test case 1. -/
example : hmac Sha256.sum256 (List.replicate 20 0x0b) (ascii "Hi There") =
    [0xb0, 0x34, 0x4c, 0x61, 0xd8, 0xdb, 0x38, 0x53, 0x5c, 0xa8, 0xaf, 0xce, 0xaf, 0x0b, 0xf1, 0x2b,
     0x88, 0x1d, 0xc2, 0x00, 0xc9, 0x83, 0x3d, 0xa7, 0x26, 0xe9, 0x37, 0x6c, 0x2e, 0x32, 0xcf, 0xf7] := by
  decide +kernel

/-- RFC 4231, test case 6: a key longer than a block. -/
example : hmac Sha256.sum256 (List.replicate 131 0xaa) (ascii "Test Using Larger Than Block-Size Key - Hash Key First") =
    [0x60, 0xe4, 0x31, 0x59, 0x1e, 0xe0, 0xb6, 0x7f, 0x0d, 0x8a, 0x26, 0xaa, 0xcb, 0xf5, 0xb7, 0x7f,
     0x8e, 0x0b, 0xc6, 0x21, 0x37, 0x28, 0xc5, 0x14, 0x05, 0x46, 0x04, 0x0f, 0x0e, 0xe3, 0x7f, 0x54] := by
  decide +kernel

/-- RFC 5869, test case 1: two blocks, the second one cut. -/
example : hkdfFill Sha256.sum256 (hkdfExtract Sha256.sum256 (List.replicate 22 0x0b)
      [0x00, 0x01, 0x02, 0x03, 0x04, 0x05, 0x06, 0x07, 0x08, 0x09, 0x0a, 0x0b, 0x0c])
      [0xf0, 0xf1, 0xf2, 0xf3, 0xf4, 0xf5, 0xf6, 0xf7, 0xf8, 0xf9] [] 1 42 =
    [0x3c, 0xb2, 0x5f, 0x25, 0xfa, 0xac, 0xd5, 0x7a, 0x90, 0x43, 0x4f, 0x64, 0xd0, 0x36, 0x2f, 0x2a,
     0x2d, 0x2d, 0x0a, 0x90, 0xcf, 0x1a, 0x5a, 0x4c, 0x5d, 0xb0, 0x2d, 0x56, 0xec, 0xc4, 0xc5, 0xbf,
     0x34, 0x00, 0x72, 0x08, 0xd5, 0xb8, 0x87, 0x18, 0x58, 0x65] := by
  decide +kernel

end Migp
