import Verif.Spec.ClientHello
import Verif.Spec.TlsHandshakeMsg
/-!
# The handshake of TLS 1.3 with a pre-shared key, RFC 8446 section 2, as the client sees it

ClientHello, ServerHello, EncryptedExtensions, Finished of the server, Finished of the client.
-/
namespace Verif.Spec.Tls
open Verif

/-- A body of a ServerHello that selects what the client has offered, with the public key `key`. -/
def HelloBody (body key : Bytes) : Prop :=
  ∃ random len extensions rest, random.length = 32 ∧ body = helloBytes random len (HelloExtension.listBytes extensions ++ rest) ∧
    (HelloExtension.listBytes extensions.dropLast).length < len ∧ len ≤ (HelloExtension.listBytes extensions).length ∧
    Selects extensions key

/-- A body of EncryptedExtensions with nothing but extensions that may be ignored. -/
def ExtensionsBody (body : Bytes) : Prop :=
  ∃ len extensions rest, len < 65536 ∧ body = u16 len ++ (Ignored.listBytes extensions ++ rest) ∧
    (extensions = [] ∨ (Ignored.listBytes extensions.dropLast).length < len) ∧ len ≤ (Ignored.listBytes extensions).length

/-- The Finished of the server: type 20, over the client hello and the two messages after it. -/
def serverFinished (psk dhe ch sh ee : Bytes) : Bytes :=
  (HsMsg.mk 20 (verifyData (serverHandshakeTraffic psk dhe [ch, sh]) [ch, sh, ee])).bytes

/-- A record with a handshake message that is not encrypted (RFC 8446 section 5.1): content type 22, version 0x0303, length, message. -/
def plaintextHandshake (message : Bytes) : Bytes := [22, 3, 3] ++ u16 message.length ++ message

end Verif.Spec.Tls
