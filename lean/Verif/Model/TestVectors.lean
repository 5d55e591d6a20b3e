import Verif.Model.Clients
/-!
# test_testvector.c: the vectors and the whole test

The vectors are those that the preprocessor keeps of testvector.h: the second half (after the `#else` in line 608) without the parts between
`#if 0` and `#endif`.
-/
namespace Model

/-- An array of `n` bytes with an initialiser: the bytes that the initialiser does not name are zero. (Semantics of C, for the arrays of testvector.h; no line of the code.) -/
def initArray (n : Nat) (b : Bytes) : Bytes := b ++ List.replicate (n - b.length) 0

/-- testvector.h:626-638. -/
def vector_shake_128f : TestVector where
  parameter_set_name := "shake_128f_simple"
  public_key := initArray 64
    [0x20, 0x21, 0x22, 0x23, 0x24, 0x25, 0x26, 0x27, 0x28, 0x29, 0x2a, 0x2b, 0x2c, 0x2d, 0x2e, 0x2f,
     0xa9, 0x0e, 0x47, 0x15, 0xb9, 0xa9, 0x25, 0xc3, 0x32, 0x80, 0x17, 0x67, 0xfd, 0x78, 0x63, 0x71]
  optrand := initArray 32
    [0xb5, 0xba, 0x72, 0xd3, 0xa0, 0xba, 0xc2, 0x2d, 0xf0, 0xbd, 0xe6, 0xbc, 0xfa, 0x9e, 0x41, 0xa1]
  hash_sig := initArray 32
    [0xd3, 0xbf, 0x28, 0x46, 0xc8, 0x99, 0x46, 0x84, 0x37, 0x6f, 0x59, 0x56, 0x99, 0x0b, 0x91, 0xb0,
     0x75, 0x87, 0x63, 0x8a, 0x70, 0xd1, 0x1c, 0x24, 0x1d, 0x3c, 0xda, 0xdf, 0x7a, 0x2c, 0xbf, 0x5c]

/-- testvector.h:657-672. -/
def vector_shake_192f : TestVector where
  parameter_set_name := "shake_192f_simple"
  public_key := initArray 64
    [0x30, 0x31, 0x32, 0x33, 0x34, 0x35, 0x36, 0x37, 0x38, 0x39, 0x3a, 0x3b, 0x3c, 0x3d, 0x3e, 0x3f,
     0x40, 0x41, 0x42, 0x43, 0x44, 0x45, 0x46, 0x47, 0x3f, 0x01, 0xb0, 0x6b, 0xeb, 0xed, 0x02, 0x0a,
     0x45, 0x96, 0x96, 0x86, 0x8d, 0x11, 0x5f, 0xe8, 0x50, 0x7d, 0xed, 0x8d, 0xc0, 0x8e, 0x82, 0x5d]
  optrand := initArray 32
    [0x7e, 0x9d, 0x4f, 0xc3, 0x27, 0x15, 0x4e, 0x25, 0x91, 0x45, 0x81, 0xe9, 0xdd, 0x39, 0x0e, 0xa4,
     0x36, 0xa2, 0x93, 0x46, 0xf9, 0x2d, 0x73, 0x54]
  hash_sig := initArray 32
    [0x3f, 0x39, 0xee, 0x50, 0xb0, 0xcc, 0x61, 0xea, 0xf4, 0xc3, 0x5f, 0xc4, 0xa8, 0x76, 0x01, 0x1e,
     0x5e, 0xa4, 0x15, 0xb0, 0xd7, 0x22, 0xf2, 0xb0, 0x30, 0xf6, 0x64, 0xc6, 0xa7, 0x8a, 0x07, 0x4c]

/-- testvector.h:694-712. -/
def vector_shake_256f : TestVector where
  parameter_set_name := "shake_256f_simple"
  public_key := initArray 64
    [0x40, 0x41, 0x42, 0x43, 0x44, 0x45, 0x46, 0x47, 0x48, 0x49, 0x4a, 0x4b, 0x4c, 0x4d, 0x4e, 0x4f,
     0x50, 0x51, 0x52, 0x53, 0x54, 0x55, 0x56, 0x57, 0x58, 0x59, 0x5a, 0x5b, 0x5c, 0x5d, 0x5e, 0x5f,
     0x81, 0x8d, 0x7e, 0x76, 0xbe, 0xef, 0x97, 0x9b, 0x5b, 0xbf, 0x91, 0x61, 0xfd, 0xef, 0xa2, 0x1b,
     0xd0, 0xfe, 0x0b, 0xfe, 0x19, 0x15, 0x7a, 0x57, 0x11, 0xa8, 0xde, 0x8a, 0x8f, 0x68, 0x78, 0xe6]
  optrand := initArray 32
    [0x17, 0xda, 0xe2, 0xc3, 0xce, 0x09, 0x3c, 0x19, 0x08, 0xe3, 0x85, 0x71, 0x9e, 0xbb, 0xfa, 0x26,
     0xb8, 0x3d, 0x45, 0x06, 0x39, 0x80, 0xc2, 0x1c, 0xf2, 0xf1, 0xcb, 0xb8, 0x72, 0x6c, 0x70, 0x59]
  hash_sig := initArray 32
    [0xcc, 0xbf, 0xec, 0x36, 0x80, 0x6e, 0x06, 0xdc, 0xd3, 0x04, 0x68, 0x6e, 0xfc, 0x10, 0xba, 0x9d,
     0xae, 0xca, 0xed, 0xab, 0xf9, 0x38, 0x33, 0xe3, 0x85, 0xbf, 0xc1, 0xd5, 0x2b, 0xc3, 0xc5, 0x14]

/-- testvector.h:728-740. -/
def vector_shake_128s : TestVector where
  parameter_set_name := "shake_128s_simple"
  public_key := initArray 64
    [0x20, 0x21, 0x22, 0x23, 0x24, 0x25, 0x26, 0x27, 0x28, 0x29, 0x2a, 0x2b, 0x2c, 0x2d, 0x2e, 0x2f,
     0x89, 0xfd, 0x81, 0xfd, 0xbb, 0x5b, 0x94, 0x12, 0x9b, 0x14, 0x76, 0x1b, 0xdc, 0x6b, 0xf6, 0x82]
  optrand := initArray 32
    [0xb4, 0x84, 0x27, 0x62, 0x09, 0x05, 0xd4, 0x15, 0x14, 0xcb, 0x45, 0xf1, 0xe5, 0x8f, 0x20, 0xc0]
  hash_sig := initArray 32
    [0x1f, 0x64, 0xc4, 0x09, 0x5b, 0x4a, 0x56, 0xed, 0xa2, 0x7b, 0xf5, 0x85, 0x09, 0x37, 0x57, 0x7e,
     0x56, 0x0d, 0xc6, 0x48, 0x53, 0x9c, 0x73, 0xad, 0x53, 0x91, 0xda, 0x29, 0x1c, 0xb0, 0x07, 0x27]

/-- testvector.h:759-774. -/
def vector_shake_192s : TestVector where
  parameter_set_name := "shake_192s_simple"
  public_key := initArray 64
    [0x30, 0x31, 0x32, 0x33, 0x34, 0x35, 0x36, 0x37, 0x38, 0x39, 0x3a, 0x3b, 0x3c, 0x3d, 0x3e, 0x3f,
     0x40, 0x41, 0x42, 0x43, 0x44, 0x45, 0x46, 0x47, 0xeb, 0x24, 0x7f, 0x95, 0x5d, 0x8e, 0xca, 0x24,
     0xa5, 0x86, 0x05, 0x36, 0xc5, 0x6b, 0x2c, 0x4d, 0x1e, 0x8d, 0x8e, 0x83, 0x5e, 0xb2, 0x7d, 0x2d]
  optrand := initArray 32
    [0xb4, 0x75, 0xc8, 0xc4, 0x80, 0xdb, 0x53, 0x84, 0x20, 0xd0, 0xf2, 0xba, 0x02, 0xf4, 0xe9, 0x43,
     0x27, 0x10, 0x90, 0x7a, 0x1d, 0x1c, 0x82, 0x6b]
  hash_sig := initArray 32
    [0xcd, 0x7d, 0x16, 0x1a, 0x91, 0xfc, 0xc4, 0x96, 0x4c, 0x08, 0xc7, 0x42, 0xcd, 0x4b, 0x6a, 0xbd,
     0xbf, 0x81, 0x38, 0xc7, 0x7e, 0x6f, 0x3c, 0x8e, 0x75, 0xa3, 0x87, 0x39, 0x4a, 0x77, 0x92, 0xeb]

/-- testvector.h:796-814. -/
def vector_shake_256s : TestVector where
  parameter_set_name := "shake_256s_simple"
  public_key := initArray 64
    [0x40, 0x41, 0x42, 0x43, 0x44, 0x45, 0x46, 0x47, 0x48, 0x49, 0x4a, 0x4b, 0x4c, 0x4d, 0x4e, 0x4f,
     0x50, 0x51, 0x52, 0x53, 0x54, 0x55, 0x56, 0x57, 0x58, 0x59, 0x5a, 0x5b, 0x5c, 0x5d, 0x5e, 0x5f,
     0x27, 0xea, 0x44, 0x4d, 0xbc, 0x8c, 0xa9, 0xc1, 0x69, 0xfd, 0x48, 0x4b, 0x9e, 0x97, 0x7e, 0xb7,
     0x7a, 0x4f, 0x23, 0x35, 0x50, 0x75, 0x7e, 0x02, 0x5c, 0xf1, 0x80, 0xed, 0xe7, 0xe8, 0x83, 0x9f]
  optrand := initArray 32
    [0x78, 0xb0, 0x24, 0x53, 0x14, 0x57, 0xb6, 0x08, 0x5c, 0x01, 0x0c, 0x36, 0x28, 0x2b, 0x11, 0x38,
     0xde, 0x9b, 0xb4, 0x11, 0xce, 0x1e, 0x37, 0x65, 0x99, 0x44, 0x41, 0x90, 0xed, 0x4d, 0x9f, 0xae]
  hash_sig := initArray 32
    [0x5e, 0x4b, 0xd0, 0xc4, 0x62, 0x4f, 0x35, 0x31, 0x44, 0xfd, 0xe4, 0x9a, 0x98, 0xab, 0xa8, 0xba,
     0x86, 0x00, 0xc5, 0x66, 0xc8, 0x61, 0x82, 0x15, 0xa1, 0x1b, 0x41, 0x71, 0xec, 0x2c, 0x7f, 0xb9]

/-- testvector.h:830-842. -/
def vector_sha2_128f : TestVector where
  parameter_set_name := "sha2_128f_simple"
  public_key := initArray 64
    [0x20, 0x21, 0x22, 0x23, 0x24, 0x25, 0x26, 0x27, 0x28, 0x29, 0x2a, 0x2b, 0x2c, 0x2d, 0x2e, 0x2f,
     0x3b, 0x56, 0xe8, 0x16, 0x84, 0x7f, 0x00, 0x03, 0x86, 0xae, 0xec, 0x2e, 0x2b, 0xb9, 0xe1, 0xb5]
  optrand := initArray 32
    [0x9e, 0x9c, 0x88, 0x01, 0xbb, 0x10, 0x31, 0x83, 0xbf, 0xd6, 0x2a, 0xc9, 0xed, 0x12, 0x65, 0x1f]
  hash_sig := initArray 32
    [0x64, 0x18, 0x40, 0xfb, 0xae, 0x50, 0x52, 0x29, 0x31, 0xc6, 0x79, 0xcb, 0xc2, 0x71, 0xc5, 0x92,
     0x2c, 0x54, 0xef, 0xd0, 0xab, 0xd8, 0x0a, 0xa3, 0xe1, 0x1e, 0xd4, 0xea, 0x4f, 0x4e, 0x10, 0x8a]

/-- testvector.h:861-876. -/
def vector_sha2_192f : TestVector where
  parameter_set_name := "sha2_192f_simple"
  public_key := initArray 64
    [0x30, 0x31, 0x32, 0x33, 0x34, 0x35, 0x36, 0x37, 0x38, 0x39, 0x3a, 0x3b, 0x3c, 0x3d, 0x3e, 0x3f,
     0x40, 0x41, 0x42, 0x43, 0x44, 0x45, 0x46, 0x47, 0x92, 0x36, 0xcc, 0xeb, 0xbb, 0x3a, 0x90, 0xac,
     0x24, 0x52, 0xdd, 0x89, 0xde, 0x49, 0xda, 0xb1, 0x34, 0x0e, 0xc0, 0x24, 0x19, 0xa2, 0x87, 0x0e]
  optrand := initArray 32
    [0xc5, 0x01, 0x20, 0x9f, 0x23, 0xca, 0x9a, 0x8b, 0xdb, 0x6e, 0xc7, 0xb1, 0x4c, 0x86, 0x7b, 0xca,
     0x22, 0xba, 0x8f, 0x42, 0xe6, 0x44, 0x91, 0xef]
  hash_sig := initArray 32
    [0x19, 0x84, 0xea, 0xce, 0xe6, 0x26, 0x04, 0xf7, 0x0e, 0xa0, 0xd9, 0x81, 0x60, 0x25, 0x68, 0x9b,
     0x50, 0x93, 0x08, 0x5c, 0x45, 0xab, 0x91, 0x7e, 0x49, 0x84, 0xb1, 0x79, 0xc6, 0x86, 0xdd, 0x5c]

/-- testvector.h:898-916. -/
def vector_sha2_256f : TestVector where
  parameter_set_name := "sha2_256f_simple"
  public_key := initArray 64
    [0x40, 0x41, 0x42, 0x43, 0x44, 0x45, 0x46, 0x47, 0x48, 0x49, 0x4a, 0x4b, 0x4c, 0x4d, 0x4e, 0x4f,
     0x50, 0x51, 0x52, 0x53, 0x54, 0x55, 0x56, 0x57, 0x58, 0x59, 0x5a, 0x5b, 0x5c, 0x5d, 0x5e, 0x5f,
     0x42, 0xcf, 0xfe, 0x64, 0xdd, 0xbd, 0x67, 0x31, 0x06, 0x37, 0x52, 0x68, 0x4d, 0xf7, 0x7c, 0x8b,
     0x58, 0xc2, 0x25, 0xdc, 0x6b, 0x49, 0x12, 0x08, 0x91, 0x6b, 0x65, 0x4e, 0xa1, 0x39, 0x31, 0x76]
  optrand := initArray 32
    [0xc7, 0xf2, 0x92, 0x7f, 0x02, 0xf4, 0x81, 0x00, 0x4f, 0x0d, 0xbd, 0x05, 0x66, 0xea, 0x27, 0x2c,
     0xde, 0x2c, 0x28, 0x54, 0xb5, 0x95, 0xe3, 0xb3, 0xd3, 0xc1, 0xa2, 0x23, 0x50, 0xc3, 0x94, 0xaa]
  hash_sig := initArray 32
    [0x98, 0x0f, 0x05, 0x57, 0x1c, 0xd0, 0x23, 0xdd, 0xcf, 0x05, 0xec, 0xb9, 0xcf, 0x98, 0x77, 0xed,
     0xe8, 0x8a, 0x37, 0x70, 0x8d, 0xac, 0xee, 0x20, 0x0f, 0xda, 0x65, 0xd4, 0x4b, 0x3b, 0xe1, 0xba]

/-- testvector.h:932-944. -/
def vector_sha2_128s : TestVector where
  parameter_set_name := "sha2_128s_simple"
  public_key := initArray 64
    [0x20, 0x21, 0x22, 0x23, 0x24, 0x25, 0x26, 0x27, 0x28, 0x29, 0x2a, 0x2b, 0x2c, 0x2d, 0x2e, 0x2f,
     0x99, 0x0c, 0xe6, 0x29, 0x87, 0x92, 0xb1, 0x28, 0x84, 0x6a, 0x8e, 0x4a, 0x3a, 0x68, 0x95, 0x4c]
  optrand := initArray 32
    [0x2f, 0x5d, 0x11, 0x78, 0xbc, 0x8f, 0xab, 0x78, 0x44, 0xa1, 0x3c, 0x25, 0x86, 0x8e, 0xef, 0x7d]
  hash_sig := initArray 32
    [0x21, 0xf1, 0x08, 0x0f, 0x46, 0x99, 0xab, 0x6d, 0xbf, 0x77, 0xa1, 0x3d, 0x39, 0x42, 0xa7, 0x0a,
     0x4b, 0xea, 0xe7, 0x4c, 0xb4, 0xac, 0xe7, 0x54, 0x30, 0xc7, 0x38, 0x3e, 0x0a, 0xdb, 0x2f, 0xa1]

/-- testvector.h:963-978. -/
def vector_sha2_192s : TestVector where
  parameter_set_name := "sha2_192s_simple"
  public_key := initArray 64
    [0x30, 0x31, 0x32, 0x33, 0x34, 0x35, 0x36, 0x37, 0x38, 0x39, 0x3a, 0x3b, 0x3c, 0x3d, 0x3e, 0x3f,
     0x40, 0x41, 0x42, 0x43, 0x44, 0x45, 0x46, 0x47, 0xb6, 0xf2, 0x82, 0xce, 0x11, 0x6f, 0xf5, 0x9b,
     0xce, 0x2d, 0x9f, 0xc4, 0xa6, 0x7c, 0x60, 0x31, 0xda, 0xbd, 0xce, 0x32, 0x6c, 0x34, 0xf5, 0x41]
  optrand := initArray 32
    [0x85, 0x0b, 0xe3, 0xce, 0x58, 0x62, 0xa4, 0x65, 0x7f, 0x0e, 0xf2, 0x34, 0xc9, 0x1a, 0x47, 0x2b,
     0xf4, 0x30, 0x2c, 0x11, 0xfe, 0x4f, 0x3b, 0x5b]
  hash_sig := initArray 32
    [0x58, 0xbb, 0x30, 0x0e, 0xa2, 0xed, 0xdc, 0x9f, 0x4d, 0x37, 0x91, 0x93, 0x1c, 0xac, 0x6b, 0x91,
     0xc1, 0x76, 0x2e, 0x65, 0x13, 0x1e, 0x5a, 0x66, 0x1c, 0x02, 0xb8, 0x1a, 0xdc, 0xef, 0x0b, 0xa3]

/-- testvector.h:1000-1018. -/
def vector_sha2_256s : TestVector where
  parameter_set_name := "sha2_256s_simple"
  public_key := initArray 64
    [0x40, 0x41, 0x42, 0x43, 0x44, 0x45, 0x46, 0x47, 0x48, 0x49, 0x4a, 0x4b, 0x4c, 0x4d, 0x4e, 0x4f,
     0x50, 0x51, 0x52, 0x53, 0x54, 0x55, 0x56, 0x57, 0x58, 0x59, 0x5a, 0x5b, 0x5c, 0x5d, 0x5e, 0x5f,
     0xda, 0x71, 0x63, 0xe6, 0x01, 0x35, 0x25, 0x15, 0xbc, 0x0f, 0x06, 0xf9, 0xf4, 0xf4, 0x4b, 0xe7,
     0x1a, 0x5a, 0x65, 0xee, 0x9d, 0xca, 0x55, 0x75, 0xcf, 0x4a, 0x7b, 0x6d, 0x4a, 0x87, 0xd6, 0xe2]
  optrand := initArray 32
    [0xe7, 0x41, 0x78, 0x0e, 0xbd, 0x09, 0xfb, 0xaa, 0x9b, 0x04, 0xfd, 0xba, 0xd8, 0xf1, 0x56, 0x19,
     0x6f, 0xa8, 0xa4, 0xe6, 0xea, 0x51, 0x4c, 0x19, 0xbe, 0x01, 0x6a, 0x30, 0xe1, 0x02, 0x38, 0x2a]
  hash_sig := initArray 32
    [0x36, 0x1b, 0x08, 0x57, 0x16, 0xab, 0x0e, 0x93, 0x0f, 0x89, 0xd3, 0x7e, 0x8c, 0x0a, 0x01, 0x4d,
     0x74, 0x71, 0x45, 0xd0, 0x7a, 0x7e, 0x18, 0x25, 0xff, 0xc6, 0x7d, 0x80, 0xc6, 0x29, 0xcf, 0x26]

/-- `vectors`, test_testvector.c:47-49. -/
def vectors : List TestVector :=
  [vector_shake_128f, vector_shake_192f, vector_shake_256f,
   vector_shake_128s, vector_shake_192s, vector_shake_256s,
   vector_sha2_128f, vector_sha2_192f, vector_sha2_256f,
   vector_sha2_128s, vector_sha2_192s, vector_sha2_256s]

/-- The variables of one round of the loop of `test_testvector`, test_testvector.c:124-125, 145-156, before it has written to them, and the
memory at that time. -/
structure VectorLocals where
  mem : Mem
  private_key : Nat
  public_key : Nat
  ctx : Ctx
  verify_ctx : Ctx
  hash_ctx : Sha256.Ctx
  buffer : Bytes

/-- `test_testvector`, test_testvector.c:105-198, without the messages: `loc i` are the variables of round `i`, which live only in that round.
`message` is the address of the three bytes of line 140. -/
def test_testvector (E : Env) (fuel : Nat) (message : Nat) (loc : Nat → VectorLocals) : (i : Nat) → List TestVector → C Nat
  | _, [] => .ok 1
  | i, v :: vs => do
    let l := loc i
    let r ← vectorTest E fuel l.mem l.private_key l.public_key l.ctx l.verify_ctx l.hash_ctx l.buffer message 3 v
    if r = 0 then .ok 0 else test_testvector E fuel message loc (i + 1) vs

end Model
