import Verif.Model.Basic
/-!
# Canonical text of a hardware address

IEEE Std 802, 8.1: the octets in order, each as two hexadecimal digits.  Written here as a reader, so that it does not share anything with
the code that prints.
-/
namespace Verif.Spec

/-- The upper-case hexadecimal digits, in order of their value. -/
def hexDigits : List Char := ['0', '1', '2', '3', '4', '5', '6', '7', '8', '9', 'A', 'B', 'C', 'D', 'E', 'F']

/-- The value of a digit. -/
def hexValue (c : Char) : Option Nat := hexDigits.findIdx? (· == c)

/-- The octets in a text of pairs of digits with `:` between them. -/
def readOctets : List Char → Option (List UInt8)
  | [h, l] => do pure [UInt8.ofNat (16 * (← hexValue h) + (← hexValue l))]
  | h :: l :: sep :: rest => do
    let v := 16 * (← hexValue h) + (← hexValue l)
    if sep = ':' then pure (UInt8.ofNat v :: (← readOctets rest)) else none
  | _ => none

end Verif.Spec
