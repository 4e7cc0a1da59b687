import Verif.Model.Ecc

/-!
# The concrete field and curve classes
-/

namespace Verif

/-- Modulus of `Field_bn254_n` (`src/fields/field_bn254.cpp:7,13`). -/
def bn254N : Nat := 0x2523648240000001BA344D8000000007FF9F800000000010A10000000000000D

/-- Modulus of `Field_bn254_p` (`src/fields/field_bn254.cpp:17,23`). -/
def bn254P : Nat := 0x2523648240000001BA344D80000000086121000000000013A700000000000013

/-- Modulus of `Field_secp256r1_n` (`src/fields/field_secp256r1.cpp:7,13`). -/
def secpN : Nat := 0xffffffff00000000ffffffffffffffffbce6faada7179e84f3b9cac2fc632551

/-- Modulus of `Field_secp256r1_p` (`src/fields/field_secp256r1.cpp:18,24`). -/
def secpP : Nat := 0xffffffff00000001000000000000000000000000ffffffffffffffffffffffff

/-- `Curve_bn254` (`src/ecc/ecc_bn254.cpp:11-24`). -/
def bn254 : CurveClass where
  fp := bn254P
  fn := bn254N
  prime := 0x2523648240000001BA344D80000000086121000000000013A700000000000013
  a := 0
  b := 2
  gx := 0x2523648240000001BA344D80000000086121000000000013A700000000000012
  gy := 1
  order := 0x2523648240000001BA344D8000000007FF9F800000000010A10000000000000D
  cofactor := 1

/-- `Curve_secp256r1` (`src/ecc/ecc_secp256r1.cpp:11-24`). -/
def secp256r1 : CurveClass where
  fp := secpP
  fn := secpN
  prime := 0xffffffff00000001000000000000000000000000ffffffffffffffffffffffff
  a := 0xffffffff00000001000000000000000000000000fffffffffffffffffffffffc
  b := 0x5ac635d8aa3a93e7b3ebbd55769886bc651d06b0cc53b0f63bce3c3e27d2604b
  gx := 0x6b17d1f2e12c4247f8bce6e563a440f277037d812deb33a0f4a13945d898c296
  gy := 0x4fe342e2fe1a7f9b8ee7eb4a7c0f9e162bce33576b315ececbb6406837bf51f5
  order := 0xffffffff00000000ffffffffffffffffbce6faada7179e84f3b9cac2fc632551
  cofactor := 1

end Verif
