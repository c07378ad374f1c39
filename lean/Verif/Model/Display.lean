import Verif.Model.Basic
/-!
# Text of hardware addresses (`ll/src/net.rs`)
-/
namespace Verif

/-- A digit of the `X` format of Rust: `0`–`9`, `A`–`F`. -/
def upperHex (n : Nat) : Char := if n < 10 then Char.ofNat (48 + n) else Char.ofNat (55 + n)

/-- `{:02X}` for a `u8`: two digits, padded with `0`. -/
def fmt02X (v : UInt8) : List Char := [upperHex (v.toNat / 16), upperHex (v.toNat % 16)]

/-- `impl Display for Eui48Addr`, `ll/src/net.rs:52-66`. -/
def Eui48.display (x : Eui48) : List Char :=
  fmt02X x.a ++ ':' :: (fmt02X x.b ++ ':' :: (fmt02X x.c ++ ':' :: (fmt02X x.d ++ ':' :: (fmt02X x.e ++ ':' :: fmt02X x.f))))

end Verif
