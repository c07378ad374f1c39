import Verif.Model.Basic
/-!
# SNTP messages, RFC 4330 section 4
-/
namespace Verif.Spec.Sntp

/-- A big-endian number. -/
def num (bs : Bytes) : Nat := bs.foldl (fun a b => a * 256 + b.toNat) 0

/-- The number in the `n` bytes at offset `i`. -/
def numAt (m : Bytes) (i n : Nat) : Nat := num ((m.drop i).take n)

/-- A message: the fields of RFC 4330 section 4, as numbers, in the order of the figure.  `li`, `vn` and `mode` are bits
0-1, 2-4 and 5-7 of the first byte, where bit 0 is the most significant one. -/
structure Message where
  li : Nat
  vn : Nat
  mode : Nat
  stratum : Nat
  poll : Nat
  precision : Int
  rootDelay : Nat
  rootDispersion : Nat
  referenceId : Bytes
  reference : Nat
  originate : Nat
  receive : Nat
  transmit : Nat
  deriving DecidableEq, Repr

/-- Decode the message in the first 48 bytes of a datagram; the precision is an 8-bit two's complement number. -/
def decode (m : Bytes) : Option Message :=
  if 48 ≤ m.length then
    some
      { li := numAt m 0 1 / 64, vn := numAt m 0 1 / 8 % 8, mode := numAt m 0 1 % 8, stratum := numAt m 1 1, poll := numAt m 2 1
        precision := if numAt m 3 1 < 128 then numAt m 3 1 else (numAt m 3 1 : Int) - 256
        rootDelay := numAt m 4 4, rootDispersion := numAt m 8 4, referenceId := (m.drop 12).take 4
        reference := numAt m 16 8, originate := numAt m 24 8, receive := numAt m 32 8, transmit := numAt m 40 8 }
  else none

/-- A reply a client may use: version 4, mode server (4), a stratum below 16, and the poll value of the request (0). -/
def Message.Acceptable (m : Message) : Prop := m.vn = 4 ∧ m.mode = 4 ∧ m.stratum ≤ 15 ∧ m.poll = 0

instance (m : Message) : Decidable m.Acceptable := inferInstanceAs (Decidable (_ ∧ _ ∧ _ ∧ _))

end Verif.Spec.Sntp
