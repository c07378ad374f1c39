import Verif.Model.Basic
/-!
# Handshake messages (RFC 8446, section 4) and their fragments (section 5.1)
-/
namespace Verif.Spec

/-- A handshake message. -/
structure HsMsg where
  type : UInt8
  body : Bytes
  deriving DecidableEq

/-- Its bytes: the type, the length of the body in 24 bits, the body. -/
def HsMsg.bytes (m : HsMsg) : Bytes :=
  m.type :: UInt8.ofNat (m.body.length / 65536) :: UInt8.ofNat (m.body.length / 256) :: UInt8.ofNat m.body.length :: m.body

/-- A message and the contents of the records it is sent in. -/
structure Fragmented where
  msg : HsMsg
  frags : List Bytes
  whole : frags.flatten = msg.bytes
  notEmpty : ∀ f ∈ frags, f ≠ []

end Verif.Spec
