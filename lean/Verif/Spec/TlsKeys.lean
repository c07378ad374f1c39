import Verif.Spec.Sha256
import Verif.Spec.ServerHello
/-!
# The key schedule of TLS 1.3, RFC 8446 section 7, with SHA-256 and AES-128-GCM

A handshake message is the string of its bytes, with its header.
-/
namespace Verif.Spec.Tls
open Verif.Spec.Sha256

/-- ASCII. -/
def text (s : String) : Bytes := s.toList.map fun c => UInt8.ofNat c.toNat

/-- A vector with a length of one byte, section 3.4. -/
def vec8 (b : Bytes) : Bytes := [UInt8.ofNat b.length] ++ b

/-- A vector with a length of two bytes, section 3.4. -/
def vec16 (b : Bytes) : Bytes := u16 b.length ++ b

/-- `HkdfLabel`, section 7.1. -/
def hkdfLabel (length : Nat) (label : String) (context : Bytes) : Bytes :=
  u16 length ++ vec8 (text "tls13 " ++ text label) ++ vec8 context

/-- `HKDF-Expand-Label(Secret, Label, Context, Length)`. -/
def expandLabel (secret : Bytes) (label : String) (context : Bytes) (length : Nat) : Bytes :=
  expand secret (hkdfLabel length label context) length

/-- `Transcript-Hash(M1, …, Mn)`, section 4.4.1. -/
def transcriptHash (messages : List Bytes) : Bytes := sha256 messages.flatten

/-- `Derive-Secret(Secret, Label, Messages)`. -/
def deriveSecret (secret : Bytes) (label : String) (messages : List Bytes) : Bytes :=
  expandLabel secret label (transcriptHash messages) 32

/-- A string of zeros of the length of the hash. -/
def zeros : Bytes := List.replicate 32 0

/-! The secrets of the diagram of section 7.1, for a pre-shared key and the shared secret of the (EC)DHE exchange. -/

def earlySecret (psk : Bytes) : Bytes := extract zeros psk
def handshakeSecret (psk dhe : Bytes) : Bytes := extract (deriveSecret (earlySecret psk) "derived" []) dhe
def masterSecret (psk dhe : Bytes) : Bytes := extract (deriveSecret (handshakeSecret psk dhe) "derived" []) zeros

/-- For an external pre-shared key. -/
def binderKey (psk : Bytes) : Bytes := deriveSecret (earlySecret psk) "ext binder" []

def clientHandshakeTraffic (psk dhe : Bytes) (chSh : List Bytes) : Bytes := deriveSecret (handshakeSecret psk dhe) "c hs traffic" chSh
def serverHandshakeTraffic (psk dhe : Bytes) (chSh : List Bytes) : Bytes := deriveSecret (handshakeSecret psk dhe) "s hs traffic" chSh

/-- The messages are those from the client hello to the server's Finished. -/
def clientAppTraffic (psk dhe : Bytes) (messages : List Bytes) : Bytes := deriveSecret (masterSecret psk dhe) "c ap traffic" messages
def serverAppTraffic (psk dhe : Bytes) (messages : List Bytes) : Bytes := deriveSecret (masterSecret psk dhe) "s ap traffic" messages

/-- `application_traffic_secret_N+1`, section 7.2. -/
def nextTraffic (traffic : Bytes) : Bytes := expandLabel traffic "traffic upd" [] 32

/-- `verify_data`, section 4.4.4: the base key and the messages before. -/
def verifyData (baseKey : Bytes) (messages : List Bytes) : Bytes :=
  hmac (expandLabel baseKey "finished" [] 32) (transcriptHash messages)

/-- A `PskBinderEntry`, section 4.2.11.2: like `verify_data`, with the binder key and the truncated client hello. -/
def binder (psk truncatedHello : Bytes) : Bytes := verifyData (binderKey psk) [truncatedHello]

/-! Section 7.3 and 5.3: the key, the initialization vector, and the nonce of a record. -/

def trafficKey (traffic : Bytes) : Bytes := expandLabel traffic "key" [] 16
def trafficIv (traffic : Bytes) : Bytes := expandLabel traffic "iv" [] 12

/-- The sequence number in network byte order, padded to the left with zeros to the length of the IV. -/
def paddedSeq (seq : Nat) : Bytes := (List.range 12).map fun i => UInt8.ofNat (seq / 256 ^ (11 - i))

/-- The padded sequence number XORed with the IV. -/
def recordNonce (traffic : Bytes) (seq : Nat) : Bytes := List.zipWith (· ^^^ ·) (trafficIv traffic) (paddedSeq seq)

end Verif.Spec.Tls
