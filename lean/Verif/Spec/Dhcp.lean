import Verif.Model.Basic
/-!
# DHCP messages, RFC 2131 section 2 and RFC 2132
-/
namespace Verif.Spec.Dhcp

/-- A big-endian number. -/
def num (bs : Bytes) : Nat := bs.foldl (fun a b => a * 256 + b.toNat) 0

/-- The `n` bytes at offset `i`. -/
def field (m : Bytes) (i n : Nat) : Bytes := (m.drop i).take n

/-! ## A sender's view: the whole message -/

/-- A message, RFC 2131 figure 1 and table 1.  Options are code and contents, in order; `rest` is what
follows the end option. -/
structure Message where
  op : Nat
  htype : Nat
  hlen : Nat
  hops : Nat
  xid : Nat
  secs : Nat
  flags : Nat
  ciaddr : Bytes
  yiaddr : Bytes
  siaddr : Bytes
  giaddr : Bytes
  chaddr : Bytes
  sname : Bytes
  file : Bytes
  options : List (Nat × Bytes)
  rest : Bytes
  deriving DecidableEq, Repr

/-- The options, RFC 2132 section 2: pad (0) and end (255) have no length; every other option has a length
and that many bytes of contents.  The first argument bounds the number of options. -/
def decodeOptions : Nat → Bytes → Option (List (Nat × Bytes) × Bytes)
  | 0, _ => none
  | _ + 1, [] => none
  | n + 1, [c] => if c = 0 then decodeOptions n [] else if c = 255 then some ([], []) else none
  | n + 1, c :: l :: r =>
    if c = 0 then decodeOptions n (l :: r)
    else if c = 255 then some ([], l :: r)
    else if l.toNat ≤ r.length then
      (decodeOptions n (r.drop l.toNat)).map fun (os, rest) => ((c.toNat, r.take l.toNat) :: os, rest)
    else none

/-- Decode a message.  The option area starts with the magic cookie 99, 130, 83, 99 (section 3). -/
def decode (m : Bytes) : Option Message :=
  if field m 236 4 = [99, 130, 83, 99] then
    (decodeOptions (m.length + 1) (m.drop 240)).map fun (os, rest) =>
      { op := num (field m 0 1), htype := num (field m 1 1), hlen := num (field m 2 1), hops := num (field m 3 1)
        xid := num (field m 4 4), secs := num (field m 8 2), flags := num (field m 10 2)
        ciaddr := field m 12 4, yiaddr := field m 16 4, siaddr := field m 20 4, giaddr := field m 24 4
        chaddr := field m 28 16, sname := field m 44 64, file := field m 108 128, options := os, rest := rest }
  else none

/-! ## A receiver's view: looking up one option -/

/-- An option in a packet: its code, its length byte and the offset of its contents in the packet. -/
structure Item where
  code : UInt8
  len : UInt8
  start : Nat
  deriving DecidableEq, Repr

/-- The options in `bs`, which starts at offset `pos` of the packet, up to the end option or the end of the
packet.  The flag is false if the last option says it is longer than the packet.  The first argument bounds
the number of options. -/
def items : Nat → Nat → Bytes → List Item × Bool
  | 0, _, _ => ([], true)
  | _ + 1, _, [] => ([], true)
  | _ + 1, _, [_] => ([], true)
  | n + 1, pos, c :: l :: r =>
    if c = 0 then items n (pos + 1) (l :: r)
    else if c = 255 then ([], true)
    else if l.toNat ≤ r.length then
      let rest := items n (pos + 2 + l.toNat) (r.drop l.toNat)
      (⟨c, l, pos + 2⟩ :: rest.1, rest.2)
    else ([⟨c, l, pos + 2⟩], false)

/-- The options of a packet; a packet without an option area has none, and is cut short. -/
def packetItems (d : Bytes) : List Item × Bool :=
  if 240 ≤ d.length then items (d.length + 1) 240 (d.drop 240) else ([], false)

inductive Lookup where
  /-- the first option with the code -/
  | found (i : Item)
  | absent
  /-- there is none in the readable part and the packet is cut short -/
  | truncated
  deriving DecidableEq, Repr

/-- Look for the first option with a code. -/
def lookup (d : Bytes) (code : UInt8) : Lookup :=
  match (packetItems d).1.find? (·.code = code) with
  | some i => .found i
  | none => if (packetItems d).2 then .absent else .truncated

/-- The first `n` bytes of the first option with a code whose length satisfies `ok`; `none` if there is no
such option or its length does not; an error if the packet is cut short before the option or in those
bytes. -/
def contents (d : Bytes) (code : UInt8) (ok : Nat → Bool) (n : Nat) : Except Err (Option Bytes) :=
  match lookup d code with
  | .absent => .ok none
  | .truncated => .error .unexpectedEof
  | .found i =>
    if ok i.len.toNat then
      if i.start + n ≤ d.length then .ok (some (field d i.start n)) else .error .unexpectedEof
    else .ok none

end Verif.Spec.Dhcp
