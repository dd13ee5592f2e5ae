import Verif.Basic

/-!
# The known good messages of test/t_cose_sign_verify_test.c
-/

namespace TCose.SignVerifyTest

/-- `signed_cose_made_by_ossl_crypto_es256`
(test/t_cose_sign_verify_test.c:27-38). -/
def knownEs256 : Bytes :=
  [0xd2, 0x84, 0x43, 0xa1, 0x01, 0x26, 0xa0, 0x47, 0x70, 0x61, 0x79, 0x6c, 0x6f, 0x61, 0x64, 0x58,
   0x40, 0xf2, 0x2b, 0xae, 0x15, 0xa8, 0xa6, 0x7a, 0x60, 0x6b, 0x0b, 0xea, 0xcb, 0xb6, 0x21, 0xd0,
   0xa0, 0xac, 0x99, 0xce, 0x2a, 0xd3, 0xd8, 0x1f, 0xa5, 0x25, 0x77, 0x04, 0x8c, 0x27, 0xf8, 0x7f,
   0xf2, 0x25, 0x78, 0xfa, 0xde, 0xed, 0xb0, 0xfb, 0xc7, 0xb3, 0x31, 0xcf, 0x4f, 0x5c, 0xc8, 0x25,
   0xde, 0xfd, 0x2d, 0xb9, 0xf3, 0x6c, 0xd7, 0xcb, 0x69, 0x53, 0xcb, 0x05, 0xe3, 0x60, 0xac, 0x98,
   0xe6]

/-- `signed_cose_made_by_psa_crypto_es384`
(test/t_cose_sign_verify_test.c:40-55). -/
def knownEs384 : Bytes :=
  [0xd2, 0x84, 0x44, 0xa1, 0x01, 0x38, 0x22, 0xa0, 0x47, 0x70, 0x61, 0x79, 0x6c, 0x6f, 0x61, 0x64,
   0x58, 0x60, 0x2c, 0x6c, 0x08, 0xf3, 0x36, 0x9e, 0x35, 0x7a, 0x6b, 0xe5, 0xd6, 0x6e, 0xf9, 0x30,
   0x06, 0x2b, 0xd8, 0x73, 0xab, 0x7e, 0x9b, 0x9d, 0x4a, 0x30, 0xdd, 0x62, 0x75, 0xe5, 0xd6, 0x61,
   0x39, 0xf7, 0x4d, 0xc3, 0x7c, 0xf0, 0xeb, 0x58, 0x9d, 0x78, 0xca, 0x70, 0xd3, 0xa2, 0xf9, 0x23,
   0x85, 0xe6, 0x45, 0x18, 0x04, 0xbe, 0x9f, 0xa0, 0xe3, 0x97, 0x4a, 0x12, 0x82, 0xf2, 0x87, 0x4f,
   0x3b, 0xf6, 0x9d, 0xc3, 0xe2, 0x99, 0xcc, 0x67, 0x69, 0x34, 0xdb, 0x1c, 0xf4, 0xaf, 0x95, 0x83,
   0x74, 0x1b, 0x5c, 0xcd, 0xd5, 0x11, 0xc1, 0x07, 0xe2, 0xd9, 0x3b, 0x16, 0x31, 0x5a, 0x55, 0x58,
   0x6c, 0xc9]

/-- `signed_cose_made_by_ossl_crypto_es512`
(test/t_cose_sign_verify_test.c:57-76). -/
def knownEs512 : Bytes :=
  [0xd2, 0x84, 0x44, 0xa1, 0x01, 0x38, 0x23, 0xa0, 0x47, 0x70, 0x61, 0x79, 0x6c, 0x6f, 0x61, 0x64,
   0x58, 0x84, 0x01, 0x54, 0x10, 0x66, 0x49, 0x6b, 0x8b, 0xdc, 0xb0, 0xce, 0x03, 0x73, 0x30, 0x01,
   0x92, 0xf1, 0xe3, 0x18, 0x37, 0xf1, 0x91, 0xc1, 0x57, 0xb5, 0x13, 0xb8, 0x30, 0x10, 0xa6, 0xa6,
   0x29, 0xdc, 0x74, 0xa0, 0x5e, 0x39, 0xc8, 0x2f, 0x2b, 0x5d, 0x1c, 0xdb, 0x90, 0x47, 0x50, 0xa0,
   0x97, 0x47, 0x0e, 0x99, 0x66, 0x6f, 0xc4, 0xa5, 0xbb, 0xd7, 0xf7, 0x99, 0xd3, 0x87, 0x7a, 0x1b,
   0x03, 0xca, 0x6a, 0xdb, 0x01, 0x04, 0xb5, 0x9d, 0xb6, 0x18, 0xe9, 0x2a, 0xd2, 0x0a, 0x32, 0x05,
   0x88, 0xda, 0x7d, 0xb8, 0xad, 0x7a, 0xce, 0x5f, 0x49, 0x1f, 0xbd, 0xf3, 0x98, 0xde, 0x44, 0x05,
   0x38, 0xd0, 0x2c, 0x12, 0x83, 0x09, 0x7a, 0xf8, 0xe8, 0x5f, 0xa7, 0x33, 0xa3, 0xe3, 0xe9, 0x35,
   0x11, 0x22, 0x48, 0x09, 0xa2, 0x95, 0x6c, 0x9b, 0x97, 0xa9, 0xe9, 0xbf, 0xa8, 0x63, 0x73, 0x88,
   0x24, 0xb0, 0x84, 0x46, 0xa8, 0x90]

/-- `signed_cose_made_by_psa_crypto_ps256`
(test/t_cose_sign_verify_test.c:78-114). -/
def knownPs256 : Bytes :=
  [0xd2, 0x84, 0x44, 0xa1, 0x01, 0x38, 0x24, 0xa0, 0x47, 0x70, 0x61, 0x79, 0x6c, 0x6f, 0x61, 0x64,
   0x59, 0x01, 0x00, 0x41, 0x9a, 0x28, 0xe2, 0xe4, 0x9a, 0x56, 0x90, 0xc1, 0x8c, 0xcd, 0x31, 0xd7,
   0x9c, 0x17, 0x42, 0x30, 0xfe, 0xcc, 0x33, 0x41, 0xd7, 0xcc, 0x6a, 0x16, 0x53, 0x38, 0xd0, 0x15,
   0x31, 0x7c, 0x5c, 0x84, 0x40, 0xc7, 0xcd, 0x8e, 0xdf, 0xc9, 0x28, 0x1c, 0xd4, 0xb0, 0xa9, 0x0f,
   0x44, 0x17, 0x50, 0x7e, 0x0e, 0xc8, 0xc5, 0xdf, 0x6a, 0xc4, 0xbf, 0x5a, 0xdf, 0x0e, 0x0f, 0x91,
   0xfe, 0x12, 0x8d, 0x0e, 0x5b, 0x29, 0xf1, 0xc5, 0xde, 0xbc, 0x6e, 0x61, 0xc7, 0x43, 0x64, 0x1b,
   0x0c, 0x5e, 0x9d, 0x72, 0xf6, 0x93, 0x71, 0x4c, 0x4d, 0x67, 0xa1, 0x1c, 0xd7, 0x98, 0x5a, 0x59,
   0x1d, 0x98, 0x12, 0x63, 0x88, 0x40, 0x00, 0x9e, 0x04, 0x9d, 0x77, 0x83, 0x39, 0xa5, 0x69, 0x83,
   0x88, 0x53, 0x38, 0xc9, 0x87, 0x04, 0xcf, 0x5a, 0x8f, 0x77, 0x6d, 0xda, 0x14, 0x6a, 0x65, 0x2f,
   0xc3, 0xd9, 0xd7, 0x52, 0x18, 0x3f, 0x04, 0x4c, 0x0d, 0x09, 0xf5, 0x15, 0x31, 0x7c, 0xc7, 0x95,
   0x91, 0xb2, 0x74, 0x3d, 0x31, 0xbc, 0x6a, 0x9b, 0x49, 0x56, 0xe7, 0xe1, 0xca, 0xb1, 0xb2, 0x36,
   0x08, 0x02, 0x5d, 0xc0, 0xb7, 0xb1, 0x1e, 0x2c, 0x5c, 0x6f, 0x74, 0x4c, 0x2f, 0x4f, 0x8a, 0xb9,
   0x9e, 0xb4, 0x36, 0xfe, 0xf4, 0xb9, 0xd2, 0x36, 0x6a, 0xa9, 0x76, 0xdd, 0xcd, 0x37, 0x80, 0x40,
   0x02, 0x76, 0xe6, 0x61, 0xfb, 0x32, 0xa8, 0xf1, 0x7c, 0x47, 0x7d, 0x69, 0xc1, 0x7b, 0xa3, 0x68,
   0x3c, 0xa1, 0x2c, 0x7c, 0x5c, 0x3d, 0x87, 0x15, 0x0a, 0xee, 0xc1, 0x2a, 0x8c, 0x67, 0xb9, 0xd2,
   0x03, 0xec, 0x46, 0xc9, 0xef, 0xe1, 0xe4, 0x82, 0x75, 0x4a, 0xf2, 0x57, 0xde, 0xac, 0x34, 0xfe,
   0x2c, 0x9d, 0xb6, 0x58, 0x5f, 0xfe, 0x67, 0x3e, 0xb5, 0x37, 0xe2, 0xbe, 0x5d, 0x38, 0xa8, 0x64,
   0x03, 0xc0, 0xb3]

/-- `signed_cose_made_by_psa_crypto_ps384`
(test/t_cose_sign_verify_test.c:116-152). -/
def knownPs384 : Bytes :=
  [0xd2, 0x84, 0x44, 0xa1, 0x01, 0x38, 0x25, 0xa0, 0x47, 0x70, 0x61, 0x79, 0x6c, 0x6f, 0x61, 0x64,
   0x59, 0x01, 0x00, 0x5e, 0xa1, 0x14, 0xd9, 0xb9, 0xb1, 0x6a, 0x0c, 0x17, 0x93, 0xe8, 0x94, 0x88,
   0x5e, 0x5a, 0x12, 0x30, 0x5d, 0x0b, 0x70, 0xbb, 0xb0, 0x89, 0xad, 0x49, 0x86, 0x1e, 0xeb, 0x3e,
   0xed, 0xff, 0x07, 0x5b, 0xa9, 0x7e, 0x7e, 0xa3, 0x2e, 0x6e, 0x1b, 0x7c, 0x9c, 0xe1, 0x22, 0xd3,
   0x5e, 0x7d, 0x0e, 0x1e, 0xfe, 0xc2, 0x03, 0x3f, 0x03, 0xfc, 0x3a, 0xef, 0x59, 0x3f, 0xda, 0x86,
   0x46, 0xe0, 0xb0, 0xe6, 0x06, 0xa3, 0xf2, 0x48, 0x90, 0x76, 0xff, 0x32, 0x2d, 0x44, 0xf4, 0x1c,
   0x18, 0x0e, 0x24, 0x6f, 0x8e, 0x55, 0x82, 0xf0, 0xf5, 0x06, 0x6b, 0xab, 0xfe, 0x52, 0x81, 0x32,
   0x8a, 0xb1, 0xa2, 0xec, 0x1b, 0x07, 0x9e, 0xd6, 0x19, 0x6b, 0x0a, 0x7e, 0x1d, 0x10, 0xad, 0xf2,
   0xb3, 0x3e, 0x3c, 0x0d, 0x23, 0x15, 0x4e, 0x2d, 0x34, 0x59, 0x4d, 0x2d, 0x59, 0x76, 0x66, 0x40,
   0x17, 0x15, 0x84, 0x04, 0x3b, 0x37, 0x57, 0xac, 0xab, 0x7f, 0xcc, 0x51, 0x99, 0x80, 0x31, 0x1a,
   0xd8, 0x1e, 0x63, 0x0b, 0x67, 0xd1, 0x21, 0xc3, 0xbe, 0x33, 0x4d, 0xfd, 0x40, 0x7e, 0x04, 0x16,
   0xe8, 0x2c, 0x0b, 0xe8, 0x3c, 0x39, 0xcc, 0xcd, 0x9a, 0x6a, 0xc6, 0x15, 0x1e, 0x49, 0xad, 0x54,
   0xee, 0x7d, 0x38, 0x47, 0x59, 0x17, 0xa5, 0xcc, 0x03, 0x81, 0x63, 0x26, 0xd1, 0x7f, 0x4d, 0x38,
   0xf5, 0x00, 0xd5, 0x66, 0xd8, 0x53, 0x8a, 0x33, 0x19, 0xb3, 0xcb, 0x8d, 0x65, 0x79, 0xb0, 0xe7,
   0xf4, 0xdd, 0x9a, 0x97, 0x7c, 0xb4, 0x13, 0x18, 0x6d, 0xc6, 0x4c, 0xbc, 0xd3, 0xed, 0x8a, 0x6e,
   0x1b, 0xf0, 0x53, 0xc7, 0x71, 0x44, 0xc9, 0xf3, 0xba, 0xaf, 0x20, 0xc5, 0x21, 0x98, 0xde, 0x71,
   0xc9, 0xa2, 0x49, 0xe4, 0xf5, 0x1d, 0x76, 0xea, 0x6b, 0xc6, 0x74, 0xbe, 0xc6, 0xee, 0x65, 0x5d,
   0xfa, 0x81, 0x29]

/-- `signed_cose_made_by_psa_crypto_ps512`
(test/t_cose_sign_verify_test.c:154-190). -/
def knownPs512 : Bytes :=
  [0xd2, 0x84, 0x44, 0xa1, 0x01, 0x38, 0x26, 0xa0, 0x47, 0x70, 0x61, 0x79, 0x6c, 0x6f, 0x61, 0x64,
   0x59, 0x01, 0x00, 0x12, 0x53, 0xfe, 0x15, 0xda, 0xb3, 0x01, 0x84, 0x40, 0x7b, 0x8b, 0x11, 0x0d,
   0x34, 0x40, 0x13, 0x97, 0x51, 0xa3, 0xf6, 0x53, 0x93, 0xee, 0x98, 0xe8, 0xb7, 0x7c, 0x4a, 0x33,
   0xba, 0x90, 0xc4, 0xd9, 0x03, 0x16, 0x32, 0x55, 0xfb, 0x64, 0x56, 0x9a, 0x65, 0x3c, 0x98, 0x8d,
   0xc4, 0xe4, 0x99, 0x79, 0xf3, 0x09, 0x88, 0x22, 0x3e, 0x12, 0x38, 0xd0, 0xe0, 0xf2, 0xac, 0xf4,
   0x07, 0x66, 0xd4, 0x99, 0x38, 0x2c, 0x7a, 0x62, 0x0c, 0x55, 0xbd, 0x57, 0x65, 0x5f, 0x3b, 0xe4,
   0x6a, 0xfd, 0x7c, 0x62, 0xe1, 0x7a, 0xbf, 0xe9, 0x28, 0x9e, 0xd4, 0x03, 0x13, 0x54, 0xf4, 0x34,
   0x30, 0xe9, 0x1e, 0xec, 0xcb, 0x55, 0x23, 0xb3, 0x2e, 0x0c, 0x1e, 0x41, 0x08, 0x04, 0x1a, 0x51,
   0x91, 0x72, 0x15, 0x78, 0x0d, 0x3c, 0x64, 0xaa, 0x0b, 0xdc, 0x8d, 0x29, 0xc1, 0x6e, 0x89, 0x58,
   0x74, 0x2a, 0x3e, 0xf6, 0xb3, 0xab, 0x61, 0xa1, 0x0b, 0xe9, 0x03, 0x44, 0xce, 0xb3, 0x27, 0x1c,
   0x25, 0x21, 0x59, 0x9a, 0x7b, 0x6a, 0x61, 0x1f, 0xee, 0x3b, 0x21, 0x3b, 0x2c, 0xd9, 0x40, 0x17,
   0x5d, 0x1f, 0xee, 0x62, 0x21, 0xf4, 0x67, 0x7f, 0xd6, 0x58, 0x2a, 0xaa, 0x75, 0xf1, 0x00, 0x26,
   0xb6, 0x04, 0x6c, 0x4d, 0xd0, 0x5a, 0x53, 0x97, 0xc9, 0xa0, 0xb6, 0x8b, 0xf3, 0xe3, 0x2f, 0xe3,
   0x01, 0x30, 0x87, 0x89, 0xda, 0x9e, 0x4c, 0xb9, 0x98, 0xd0, 0x0c, 0xc2, 0x92, 0x90, 0xbb, 0xb1,
   0x40, 0xe2, 0xd8, 0xd2, 0x23, 0x8b, 0x92, 0xd7, 0x55, 0x81, 0x4a, 0xeb, 0xed, 0x08, 0xe9, 0x43,
   0xe8, 0x33, 0xa1, 0x47, 0x3c, 0x2b, 0xc1, 0xd0, 0x69, 0x9a, 0xf9, 0x97, 0x9f, 0x2f, 0xf1, 0xab,
   0x6f, 0x6e, 0xd2, 0xb2, 0xea, 0x0b, 0xc9, 0x02, 0xb7, 0x4d, 0x60, 0x1b, 0x3a, 0x10, 0x51, 0x20,
   0x12, 0x5c, 0x32]

/-- `signed_cose_made_by_pycose_eddsa`
(test/t_cose_sign_verify_test.c:192-204). -/
def knownEddsa : Bytes :=
  [0xd2, 0x84, 0x43, 0xa1, 0x01, 0x27, 0xa0, 0x47, 0x70, 0x61, 0x79, 0x6c, 0x6f, 0x61, 0x64, 0x58,
   0x40, 0x17, 0x02, 0xb0, 0xf2, 0x3f, 0x47, 0xe8, 0x9f, 0xab, 0x39, 0xcd, 0xd3, 0xd6, 0x5a, 0x57,
   0x76, 0x37, 0xb2, 0xbc, 0x8e, 0xd1, 0xe3, 0xa9, 0xc1, 0x4d, 0xf3, 0xbf, 0x4a, 0x93, 0x4c, 0xe7,
   0xe2, 0xa8, 0xae, 0x46, 0xb5, 0x82, 0x48, 0x79, 0xde, 0x7b, 0x81, 0xd0, 0x25, 0xbc, 0xf8, 0x32,
   0xab, 0x41, 0x00, 0xc5, 0xd9, 0x39, 0xc7, 0xf2, 0x07, 0x27, 0x70, 0xf3, 0x76, 0xd2, 0x8d, 0xbe,
   0x00]

/-- `test_cases` (test/t_cose_sign_verify_test.c:216-226) without the sentinel row, which
ends the loops. -/
def testCases : List (Int × Bytes) :=
  [(algES256, knownEs256), (algES384, knownEs384), (algES512, knownEs512), (algPS256, knownPs256),
   (algPS384, knownPs384), (algPS512, knownPs512), (algEDDSA, knownEddsa)]

end TCose.SignVerifyTest
