import Verif.Spec.TlsKeys
import Verif.Spec.Gcm
/-!
# The record protocol of TLS 1.3, RFC 8446 section 5, with AES-128-GCM
-/
namespace Verif.Spec.Tls

/-- AES-128 with the key of a traffic secret. -/
def recordCipher (traffic : Bytes) : Nat → Nat := Gcm.aes fun i => (trafficKey traffic).getD i.val 0

/-- The header of a `TLSCiphertext` with an `encrypted_record` of `n` bytes, section 5.2. -/
def protectedHeader (n : Nat) : Bytes := [23] ++ u16 0x0303 ++ u16 n

/-- The `TLSCiphertext` of a content of some type, without padding: record number `seq` protected with a traffic secret. The header
is the additional data. -/
def protect (traffic : Bytes) (seq : Nat) (type : UInt8) (content : Bytes) : Bytes :=
  let header := protectedHeader (content.length + 1 + 16)
  let sealed := Gcm.ae (recordCipher traffic) (recordNonce traffic seq) header (content ++ [type])
  header ++ sealed.1 ++ sealed.2

/-- The `TLSInnerPlaintext` of an `encrypted_record`, if its tag is right. -/
def unprotect (traffic : Bytes) (seq : Nat) (header record : Bytes) : Option Bytes :=
  Gcm.ad (recordCipher traffic) (recordNonce traffic seq) header (record.take (record.length - 16)) (record.drop (record.length - 16))

end Verif.Spec.Tls
