import Verif.Model.Tls.KeySchedule
import Verif.Model.Hl.Hostname
/-!
# `tls/src/handshake/client_hello.rs`

The arrays that the Rust code computes in `const` functions are lists here; `dbg` is true in a debug build, in which a sum that
overflows panics.
-/
namespace Verif.Tls
open Verif Hl

/-- `vector_u8`, `tls/src/handshake/client_hello.rs:196-219`. -/
def vectorU8 (values : List Bytes) : Bytes := UInt8.ofNat values.flatten.length :: values.flatten

/-- `vector_u16`, `tls/src/handshake/client_hello.rs:223-250`. -/
def vectorU16 (values : List Bytes) : Bytes := toBe16 (UInt16.ofNat values.flatten.length) ++ values.flatten

/-- `extension`, `tls/src/handshake/client_hello.rs:367-384`. -/
def extension (type : ExtensionType) (data : Bytes) : Bytes :=
  toBe16 type.code ++ toBe16 (UInt16.ofNat data.length) ++ data

/-- `RECORD_HEADER_NO_LENGTH`, `tls/src/handshake/client_hello.rs:417-421`. -/
def recordHeaderNoLength : Bytes := [ContentType.handshake.code] ++ toBe16 0x0303

/-- `LEGACY_THINGS_AND_CIPHER_SUITES`, `tls/src/handshake/client_hello.rs:423-437`. -/
def legacyThingsAndCipherSuites : Bytes :=
  [0] ++ vectorU16 ([CipherSuite.aes128GcmSha256].map fun s => [s.value.1, s.value.2]) ++ [1, 0]

/-- `CLIENT_HELLO_SUPPORTED_VERSIONS_EXTENSION`, `tls/src/handshake/client_hello.rs:439-447`. -/
def supportedVersionsExtension : Bytes := extension .supportedVersions (vectorU8 ([0x0304].map toBe16))

/-- `SIGNATURE_SCHEMES`, `tls/src/handshake/client_hello.rs:449-459`. -/
def signatureSchemes : List SignatureScheme :=
  [.rsaPkcs1Sha256, .rsaPkcs1Sha384, .rsaPkcs1Sha512, .ecdsaSecp256r1Sha256, .ecdsaSecp384r1Sha384, .rsaPssRsaeSha256,
    .rsaPssRsaeSha384, .rsaPssRsaeSha512, .ed25519]

/-- `SIGNATURE_ALGORITHMS_EXTENSION`, `tls/src/handshake/client_hello.rs:460-464`. -/
def signatureAlgorithmsExtension : Bytes :=
  extension .signatureAlgorithms (vectorU16 (signatureSchemes.map fun s => toBe16 s.code))

/-- `SUPPORTED_GROUPS_EXTENSION`, `tls/src/handshake/client_hello.rs:466-471`. -/
def supportedGroupsExtension : Bytes :=
  extension .supportedGroups (vectorU16 ([NamedGroup.secp256r1].map fun g => toBe16 g.code))

/-- `KEY_EXCHANGE_MODES_EXTENSION`, `tls/src/handshake/client_hello.rs:473-478`; `PskKeyExchangeMode::DheKe` is 1. -/
def keyExchangeModesExtension : Bytes := extension .pskKeyExchangeModes (vectorU8 [[1]])

/-- `CONST_EXTENSIONS`, `tls/src/handshake/client_hello.rs:480-489`. -/
def constExtensions : Bytes :=
  (supportedGroupsExtension ++ keyExchangeModesExtension) ++ (supportedVersionsExtension ++ signatureAlgorithmsExtension)

/-- `struct ClientHelloWriter`, `tls/src/handshake/client_hello.rs:491-495`: the size of the buffer, the bytes written and the key
schedule. -/
structure ClientHelloWriter (x : Crypto) where
  cap : Nat
  out : Bytes
  ks : KeySchedule x

namespace ClientHelloWriter
variable {x : Crypto}

/-- `ClientHelloWriter::copy_from_slice_no_hash`, `tls/src/handshake/client_hello.rs:503-506`. -/
def copyNoHash (src : Bytes) (w : ClientHelloWriter x) : Except Err (ClientHelloWriter x) :=
  if w.out.length + src.length ≤ w.cap then .ok { w with out := w.out ++ src } else .error .panic

/-- `ClientHelloWriter::copy_from_slice`, `tls/src/handshake/client_hello.rs:498-501`; `ClientHelloWriter::push`,
`tls/src/handshake/client_hello.rs:508-512`, with one byte. -/
def copy (src : Bytes) (w : ClientHelloWriter x) : Except Err (ClientHelloWriter x) :=
  (w.copyNoHash src).map fun w => { w with ks := { w.ks with transcript := w.ks.transcript ++ src } }

/-- `ClientHelloWriter::write_binder`, `tls/src/handshake/client_hello.rs:514-517`. -/
def writeBinder (psk truncated : Bytes) (w : ClientHelloWriter x) : Except Err (ClientHelloWriter x) :=
  let y := w.ks.binder psk truncated
  copy y.1 { w with ks := y.2 }

end ClientHelloWriter

/-- `a + b` of two `u16`. -/
def add16 (dbg : Bool) (a b : UInt16) : Except Err UInt16 :=
  if dbg = true ∧ 65536 ≤ a.toNat + b.toNat then .error .panic else .ok (a + b)

/-- The arguments of `ser`, except for the buffer and the key schedule. -/
structure HelloArgs where
  random : Bytes
  hostname : Bytes
  publicKey : Bytes
  psk : Bytes
  identity : Bytes
  recordSizeLimit : UInt16

namespace HelloArgs
open ClientHelloWriter
variable {x : Crypto}

/-- `extensions_length`, `handshake_length` and `tls_plaintext_length` in `ser`: `tls/src/handshake/client_hello.rs:537-540`. -/
def lengths (dbg : Bool) (a : HelloArgs) : Except Err (UInt16 × UInt16 × UInt16) :=
  add16 dbg 137 (UInt16.ofNat constExtensions.length) >>= fun e =>
  add16 dbg e (hostnameLen a.hostname).toUInt16 >>= fun e =>
  add16 dbg e (UInt16.ofNat a.identity.length) >>= fun extensionsLength =>
  add16 dbg 43 extensionsLength >>= fun handshakeLength =>
  add16 dbg 4 handshakeLength >>= fun plaintextLength =>
  .ok (extensionsLength, handshakeLength, plaintextLength)

/-- The server name extension in `ser`: `tls/src/handshake/client_hello.rs:562-573`; `NameType::Hostname` is 0. -/
def serverName (a : HelloArgs) (w : ClientHelloWriter x) : Except Err (ClientHelloWriter x) :=
  let hostnameLen : UInt16 := (hostnameLen a.hostname).toUInt16
  let serverNameListLen := hostnameLen + 3
  let extensionLen := serverNameListLen + 2
  w.copy (toBe16 ExtensionType.serverName.code) >>= fun w =>
  w.copy (toBe16 extensionLen) >>= fun w =>
  w.copy (toBe16 serverNameListLen) >>= fun w =>
  w.copy [0] >>= fun w =>
  w.copy (toBe16 hostnameLen) >>= fun w =>
  w.copy a.hostname

/-- The key share extension in `ser`: `tls/src/handshake/client_hello.rs:577-598`. -/
def keyShare (a : HelloArgs) (w : ClientHelloWriter x) : Except Err (ClientHelloWriter x) :=
  let pointSize : UInt16 := 65
  let clientSharesLen := pointSize + 2 + 2
  let extensionLen := clientSharesLen + 2
  w.copy (toBe16 ExtensionType.keyShare.code ++ toBe16 extensionLen ++ toBe16 clientSharesLen ++
    toBe16 NamedGroup.secp256r1.code ++ toBe16 pointSize) >>= fun w =>
  w.copy a.publicKey

/-- The record size limit extension in `ser`: `tls/src/handshake/client_hello.rs:602-606`. -/
def recordSize (a : HelloArgs) (w : ClientHelloWriter x) : Except Err (ClientHelloWriter x) :=
  w.copy (toBe16 ExtensionType.recordSizeLimit.code) >>= fun w =>
  w.copy (toBe16 2) >>= fun w =>
  w.copy (toBe16 a.recordSizeLimit)

/-- The pre-shared key extension in `ser`: `tls/src/handshake/client_hello.rs:610-634`. -/
def preSharedKey (dbg : Bool) (a : HelloArgs) (w : ClientHelloWriter x) : Except Err (ClientHelloWriter x) :=
  let identityLen := UInt16.ofNat a.identity.length
  let binderLen : UInt8 := 32
  let bindersLen : UInt16 := 32 + 1
  add16 dbg identityLen 4 >>= fun n =>
  add16 dbg n 2 >>= fun identitiesLen =>
  add16 dbg identitiesLen bindersLen >>= fun n =>
  add16 dbg n 2 >>= fun n =>
  add16 dbg n 2 >>= fun extensionLen =>
  w.copy (toBe16 ExtensionType.preSharedKey.code) >>= fun w =>
  w.copy (toBe16 extensionLen) >>= fun w =>
  w.copy (toBe16 identitiesLen) >>= fun w =>
  w.copy (toBe16 identityLen) >>= fun w =>
  w.copy a.identity >>= fun w =>
  w.copy [0, 0, 0, 0] >>= fun w =>
  let truncated := w.ks.transcript
  w.copy (toBe16 bindersLen) >>= fun w =>
  w.copy [binderLen] >>= fun w =>
  w.writeBinder a.psk truncated

end HelloArgs

/-- `assert_eq!` of two `u16`. -/
def assertEq16 (a b : UInt16) : Except Err Unit := if a = b then .ok () else .error .panic

open ClientHelloWriter in
/-- `ser`, `tls/src/handshake/client_hello.rs:521-646`: the bytes at the start of the buffer of size `cap`, and the key schedule. -/
def clientHelloSer {x : Crypto} (dbg : Bool) (cap : Nat) (a : HelloArgs) (ks : KeySchedule x) :
    Except Err (Bytes × KeySchedule x) :=
  a.lengths dbg >>= fun (extensionsLength, handshakeLength, plaintextLength) =>
  (ClientHelloWriter.mk cap [] ks).copyNoHash recordHeaderNoLength >>= fun w =>
  w.copyNoHash (toBe16 plaintextLength) >>= fun w =>
  let startOfRecord := w.out.length
  w.copy [HandshakeType.clientHello.code] >>= fun w =>
  w.copy [0] >>= fun w =>
  w.copy (toBe16 handshakeLength) >>= fun w =>
  let startOfHandshake := w.out.length
  w.copy (toBe16 0x0303) >>= fun w =>
  w.copy a.random >>= fun w =>
  w.copy legacyThingsAndCipherSuites >>= fun w =>
  w.copy (toBe16 extensionsLength) >>= fun w =>
  let startOfExtensions := w.out.length
  w.copy constExtensions >>= fun w =>
  a.serverName w >>= fun w =>
  a.keyShare w >>= fun w =>
  a.recordSize w >>= fun w =>
  a.preSharedKey dbg w >>= fun w =>
  assertEq16 (UInt16.ofNat (w.out.length - startOfExtensions)) extensionsLength >>= fun _ =>
  assertEq16 (UInt16.ofNat (w.out.length - startOfHandshake)) handshakeLength >>= fun _ =>
  assertEq16 (UInt16.ofNat (w.out.length - startOfRecord)) plaintextLength >>= fun _ =>
  .ok (w.out, w.ks)

end Verif.Tls
