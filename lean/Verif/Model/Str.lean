import Verif.Model.Basic
/-!
# The part of `core::str` used by the clients
-/
namespace Verif

/-- A UTF-8 continuation byte. -/
def isCont (b : UInt8) : Bool := 0x80 ≤ b && b ≤ 0xBF

/-- Does `core::str::from_utf8` accept these bytes?  (The table of well-formed byte sequences of the
Unicode standard, which the documentation of `from_utf8` refers to.) -/
def utf8Valid : Bytes → Bool
  | [] => true
  | a :: rest =>
    if a < 0x80 then utf8Valid rest
    else if 0xC2 ≤ a && a ≤ 0xDF then
      match rest with
      | b :: r => isCont b && utf8Valid r
      | _ => false
    else if 0xE0 ≤ a && a ≤ 0xEF then
      match rest with
      | b :: c :: r =>
        ((a == 0xE0 && 0xA0 ≤ b && b ≤ 0xBF) || (a == 0xED && 0x80 ≤ b && b ≤ 0x9F) ||
          (a != 0xE0 && a != 0xED && isCont b)) && isCont c && utf8Valid r
      | _ => false
    else if 0xF0 ≤ a && a ≤ 0xF4 then
      match rest with
      | b :: c :: d :: r =>
        ((a == 0xF0 && 0x90 ≤ b && b ≤ 0xBF) || (a == 0xF4 && 0x80 ≤ b && b ≤ 0x8F) ||
          (a != 0xF0 && a != 0xF4 && isCont b)) && isCont c && isCont d && utf8Valid r
      | _ => false
    else false

/-- `core::str::from_utf8(bytes).ok()`. -/
def fromUtf8 (bs : Bytes) : Option Bytes := if utf8Valid bs then some bs else none

end Verif
