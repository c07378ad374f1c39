import Verif.Spec.World
/-!
# MQTT 5 control packets (OASIS standard, 07 March 2019)
-/
namespace Verif.Spec.Mqtt

/-- Section 1.5.5: `bs` is a variable byte integer with the value `n`.  Seven bits in each byte, least significant first; the
top bit says that more bytes follow.  (The standard also limits the length to four bytes and demands the shortest encoding.) -/
inductive IsVbi : Bytes → Nat → Prop
  | last (b : UInt8) (h : b.toNat < 128) : IsVbi [b] b.toNat
  | more (b : UInt8) (h : 128 ≤ b.toNat) {bs : Bytes} {n : Nat} : IsVbi bs n → IsVbi (b :: bs) (b.toNat - 128 + 128 * n)

/-- The shortest variable byte integer with value `n`. -/
def vbi (n : Nat) : Bytes := if n < 128 then [UInt8.ofNat n] else UInt8.ofNat (n % 128 + 128) :: vbi (n / 128)

/-- Section 2.1: a control packet: four bits of type, four bits of flags, the length of the rest, the rest. -/
def packet (type flags : Nat) (body : Bytes) : Bytes := UInt8.ofNat (type * 16 + flags) :: (vbi body.length ++ body)

/-- Section 1.5.2: a two byte integer, big endian. -/
def u16 (n : Nat) : Bytes := [UInt8.ofNat (n / 256), UInt8.ofNat n]

/-- Section 1.5.4: a string with its length in front. -/
def str (s : Bytes) : Bytes := u16 s.length ++ s

/-- Section 3.1: CONNECT for MQTT version 5 with clean start, no will, no user name and no password, the given keep alive
interval and client identifier, and one property (0x27), the maximum packet size. -/
def connect (keepAlive maxPacketSize : Nat) (clientId : Bytes) : Bytes :=
  packet 1 0 (str [77, 81, 84, 84] ++ [5, 2] ++ u16 keepAlive ++
    ([5] ++ ([0x27] ++ u16 (maxPacketSize / 65536) ++ u16 maxPacketSize)) ++ str clientId)

/-- Section 3.3: PUBLISH with QoS 0, not a duplicate, not retained (or with the given flags), with the given properties. -/
def publish (topic payload : Bytes) (properties : Bytes := []) (flags : Nat := 0) : Bytes :=
  packet 3 flags (str topic ++ (vbi properties.length ++ properties) ++ payload)

/-- Section 3.8.3.1: the subscription options the client asks for: maximum QoS 0, no local publications, retain as published
off, retained messages never sent when subscribing. -/
def options (qos noLocal retainAsPublished retainHandling : Nat) : Nat :=
  qos + 4 * noLocal + 8 * retainAsPublished + 16 * retainHandling

/-- Section 3.8: SUBSCRIBE to one filter, without properties. -/
def subscribe (id : Nat) (filter : Bytes) (opts : Nat) : Bytes := packet 8 2 (u16 id ++ [0] ++ str filter ++ [UInt8.ofNat opts])

/-- Section 3.10: UNSUBSCRIBE from one filter, without properties. -/
def unsubscribe (id : Nat) (filter : Bytes) : Bytes := packet 10 2 (u16 id ++ [0] ++ str filter)

/-- Section 3.2: CONNACK. -/
def connack (sessionPresent code : UInt8) (properties : Bytes) : Bytes :=
  packet 2 0 ([sessionPresent, code] ++ (vbi properties.length ++ properties))

/-- Sections 3.9 and 3.11: SUBACK (9) and UNSUBACK (11). -/
def ack (type id : Nat) (properties codes : Bytes) : Bytes :=
  packet type 0 (u16 id ++ (vbi properties.length ++ properties) ++ codes)

/-- Section 3.2.2.2: the reason codes of CONNACK other than 0, success. -/
def connackCodes : List Nat :=
  [0x80, 0x81, 0x82, 0x83, 0x84, 0x85, 0x86, 0x87, 0x88, 0x89, 0x8A, 0x8C, 0x90, 0x95, 0x97, 0x99, 0x9A, 0x9B, 0x9C, 0x9D, 0x9F]
/-- Section 3.9.3: the reason codes of SUBACK. -/
def subackCodes : List Nat := [0x00, 0x01, 0x02, 0x80, 0x83, 0x87, 0x8F, 0x91, 0x97, 0x9E, 0xA1, 0xA2]
/-- Section 3.11.3: the reason codes of UNSUBACK. -/
def unsubackCodes : List Nat := [0x00, 0x11, 0x80, 0x83, 0x87, 0x8F, 0x91]

/-! W5500 datasheet, `Sn_IR`: the interrupts of a socket. -/
/-- The interrupt register of socket `k`. -/
def interrupts (c : Chip) (k : Nat) : UInt8 := c.mem (4 * k + 1) 2
/-- CON: the connection was established. -/
def con (x : UInt8) : Bool := bit x 0
/-- DISCON: the peer closed the connection. -/
def discon (x : UInt8) : Bool := bit x 1
/-- TIMEOUT: the peer does not answer. -/
def timeout (x : UInt8) : Bool := bit x 3

/-- None of these. -/
def quiet (x : UInt8) : Bool := !con x && !discon x && !timeout x

end Verif.Spec.Mqtt
