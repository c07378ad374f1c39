import Verif.Spec.TlsHandshake
import Verif.Spec.TlsRecord
/-!
# What a server of TLS 1.3 with a pre-shared key sends, RFC 8446 section 2.2

`psk` is the pre-shared key, `dhe` the shared secret of the key exchange and `ch` the ClientHello.
-/
namespace Verif.Spec.Tls
open Verif

/-- The answer of a server: the bodies of its ServerHello and of its EncryptedExtensions. -/
structure Answer where
  hello : Bytes
  extensions : Bytes

/-- The ServerHello. -/
def Answer.sh (a : Answer) : Bytes := (HsMsg.mk 2 a.hello).bytes

/-- The EncryptedExtensions. -/
def Answer.ee (a : Answer) : Bytes := (HsMsg.mk 8 a.extensions).bytes

/-- The Finished of the server. -/
def Answer.fin (a : Answer) (psk dhe ch : Bytes) : Bytes := serverFinished psk dhe ch a.sh a.ee

/-- The records of the server: the ServerHello is not encrypted, the other two messages are, with the sequence numbers 0 and 1. -/
def Answer.record1 (a : Answer) : Bytes := plaintextHandshake a.sh
def Answer.record2 (a : Answer) (psk dhe ch : Bytes) : Bytes := protect (serverHandshakeTraffic psk dhe [ch, a.sh]) 0 22 a.ee
def Answer.record3 (a : Answer) (psk dhe ch : Bytes) : Bytes := protect (serverHandshakeTraffic psk dhe [ch, a.sh]) 1 22 (a.fin psk dhe ch)

/-- All it sends, in this order. -/
def Answer.flight (a : Answer) (psk dhe ch : Bytes) : Bytes := a.record1 ++ a.record2 psk dhe ch ++ a.record3 psk dhe ch

/-- The record with which the client has to finish the handshake: its Finished, with the sequence number 0. -/
def Answer.reply (a : Answer) (psk dhe ch : Bytes) : Bytes :=
  protect (clientHandshakeTraffic psk dhe [ch, a.sh]) 0 22
    (HsMsg.mk 20 (verifyData (clientHandshakeTraffic psk dhe [ch, a.sh]) [ch, a.sh, a.ee, a.fin psk dhe ch])).bytes

end Verif.Spec.Tls
