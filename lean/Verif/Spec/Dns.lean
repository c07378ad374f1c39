import Verif.Model.Basic
/-!
# DNS messages, RFC 1035 section 4
-/
namespace Verif.Spec.Dns

/-- A big-endian 16-bit number. -/
def num (a b : UInt8) : Nat := a.toNat * 256 + b.toNat

/-- The 16-bit number at offset `i` of a message. -/
def word (m : Bytes) (i : Nat) : Nat := num (m.getD i 0) (m.getD (i + 1) 0)

/-- The 32-bit number at offset `i` of a message. -/
def long (m : Bytes) (i : Nat) : Nat := word m i * 65536 + word m (i + 2)

/-- An uncompressed name, section 3.1: length-prefixed labels of 1 to 63 bytes up to a zero byte.
Returns the labels and what follows.  The first argument bounds the number of labels. -/
def decodeLabels : Nat → Bytes → Option (List Bytes × Bytes)
  | 0, _ => none
  | _, [] => none
  | n + 1, len :: rest =>
    if len = 0 then some ([], rest)
    else if len.toNat ≤ 63 ∧ len.toNat ≤ rest.length then
      (decodeLabels n (rest.drop len.toNat)).map fun (ls, r) => (rest.take len.toNat :: ls, r)
    else none

/-- A question, section 4.1.2; the name is written with dots. -/
structure Question where
  name : Bytes
  qtype : Nat
  qclass : Nat
  deriving DecidableEq

/-- `n` questions and what follows. -/
def decodeQuestions : Nat → Bytes → Option (List Question × Bytes)
  | 0, bs => some ([], bs)
  | n + 1, bs =>
    match decodeLabels (bs.length + 1) bs with
    | some (ls, t1 :: t2 :: c1 :: c2 :: r) =>
      (decodeQuestions n r).map fun (qs, r') => (⟨[46].intercalate ls, num t1 t2, num c1 c2⟩ :: qs, r')
    | _ => none

/-- A message made of a header, section 4.1.1, and questions. -/
structure Query where
  id : Nat
  qr : Nat
  opcode : Nat
  aa : Nat
  tc : Nat
  rd : Nat
  ra : Nat
  z : Nat
  rcode : Nat
  questions : List Question
  ancount : Nat
  nscount : Nat
  arcount : Nat
  deriving DecidableEq

/-- Decode a message that consists of questions only. -/
def decodeQuery : Bytes → Option Query
  | b0 :: b1 :: b2 :: b3 :: b4 :: b5 :: b6 :: b7 :: b8 :: b9 :: b10 :: b11 :: rest =>
    match decodeQuestions (num b4 b5) rest with
    | some (qs, []) =>
      some { id := num b0 b1, qr := b2.toNat / 128, opcode := b2.toNat / 8 % 16, aa := b2.toNat / 4 % 2,
             tc := b2.toNat / 2 % 2, rd := b2.toNat % 2, ra := b3.toNat / 128, z := b3.toNat / 16 % 8,
             rcode := b3.toNat % 16, questions := qs, ancount := num b6 b7, nscount := num b8 b9,
             arcount := num b10 b11 }
    | _ => none
  | _ => none

/-- Message `m` holds at offset `p` the name with labels `ls`, sections 3.1 and 4.1.4; `stop` is the
offset after the name where it stands (after its zero byte or its first pointer), and `n` counts the
zero byte, the labels and the pointers met. -/
inductive NameAt (m : Bytes) : Nat → List Bytes → Nat → Nat → Prop where
  | root {p} : m[p]? = some 0 → NameAt m p [] (p + 1) 1
  | label {p b ls stop n} : m[p]? = some b → 1 ≤ b.toNat → b.toNat ≤ 63 → p + 1 + b.toNat ≤ m.length →
      NameAt m (p + 1 + b.toNat) ls stop n →
      NameAt m p ((m.drop (p + 1)).take b.toNat :: ls) stop (n + 1)
  | pointer {p a b ls stop n} : m[p]? = some a → 192 ≤ a.toNat → m[p + 1]? = some b →
      NameAt m ((a.toNat - 192) * 256 + b.toNat) ls stop n → NameAt m p ls (p + 2) (n + 1)

end Verif.Spec.Dns
