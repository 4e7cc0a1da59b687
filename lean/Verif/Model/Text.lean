import Verif.Model.Curves

/-!
# The stream output operators of fields, points and curves

The stream is modelled by the characters that the operator appends to it.  Simplification: the stream has its
default format (decimal, no field width, no sign for non-negative numbers) and never fails.
-/

namespace Verif

/-- `out << z` for an `mpz_class` and a stream in its default format (GMP's `operator<<`): an optional minus sign
and the decimal digits without leading zeros.  Trusted GMP semantics. -/
def showZ (z : Int) : List Char :=
  if z < 0 then '-' :: Nat.toDigits 10 z.natAbs else Nat.toDigits 10 z.natAbs

/-- `operator<<(std::ostream&, const PrimeField&)` (`includes/field_template.hpp:227-230`). -/
def Fld.print (a : Fld) : List Char := showZ a.value ++ ([' ', ' ', 'm', 'o', 'd', ' '] ++ showZ a.p)

/-- `operator<<(std::ostream&, const Point&)` (`includes/ecc_template.hpp:510-515`). -/
def Pt.print (P : Pt) : List Char :=
  if P.inf then ['(', 'i', 'n', 'f', ',', ' ', 'i', 'n', 'f', ')']
  else ['('] ++ (showZ P.x.getRawValue ++ ([','] ++ (showZ P.y.getRawValue ++ [')'])))

/-- `operator<<(std::ostream&, const Curve&)` (`includes/ecc_template.hpp:607-610`). -/
def CurveClass.print (C : CurveClass) : List Char :=
  ['C', '(', 'p', '='] ++ (showZ C.prime ++ ([',', ' ', 'a', '='] ++ (showZ C.a ++ ([',', ' ', 'b', '='] ++
    (showZ C.b ++ ([',', ' ', 'n', '='] ++ (showZ C.order ++ ([',', ' ', 'c', 'o', 'f', '='] ++
      (showZ C.cofactor ++ [')'])))))))))

end Verif
