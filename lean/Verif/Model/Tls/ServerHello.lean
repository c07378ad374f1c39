import Verif.Model.Tls.Buffer
/-!
# `tls/src/handshake/server_hello.rs` and `encrypted_extensions.rs`

The reader is consumed: what is left of it is not used by the callers.  `pk` is `public_key_from_sec1_bytes`
(`tls/src/crypto/p256/rust_crypto.rs:6-8`), which is not modelled.
-/
namespace Verif.Tls
open Verif

/-- An error with a value. -/
def fail {α : Type} (e : AlertDescription) : Res α := .error (.err e)

/-- What `recv_server_hello` has seen, `tls/src/handshake/server_hello.rs:69-74`. -/
structure Seen where
  versions : Bool := false
  keyShare : Bool := false
  psk : Bool := false
  key : Bytes := List.replicate 65 0
  deriving DecidableEq

/-- `extensions_end`, `tls/src/handshake/server_hello.rs:59-66`. -/
def extensionsEnd (pos len : UInt16) : Res UInt16 :=
  if pos.toNat + len.toNat < 65536 then .ok (pos + len) else fail .decodeError

/-- `ExtensionType::KeyShare`, `tls/src/handshake/server_hello.rs:92-119`. -/
def recvKeyShare (r : CircleReader) (seen : Seen) : Res (CircleReader × Seen) :=
  if seen.keyShare then fail .illegalParameter
  else r.nextU16 >>= fun group =>
  if NamedGroup.tryFrom group.1 ≠ .ok .secp256r1 then fail .illegalParameter
  else group.2.nextU16 >>= fun keyLen =>
  if keyLen.1.toNat ≠ 65 then fail .decodeError
  else keyLen.2.readExact 65 >>= fun key =>
  .ok (key.2, { seen with keyShare := true, key := key.1 })

/-- `ExtensionType::SupportedVersions`, `tls/src/handshake/server_hello.rs:120-140`. -/
def recvSupportedVersions (r : CircleReader) (seen : Seen) : Res (CircleReader × Seen) :=
  if seen.versions then fail .illegalParameter
  else r.nextU16 >>= fun version =>
  if version.1 ≠ 0x0304 then fail .illegalParameter
  else .ok (version.2, { seen with versions := true })

/-- `ExtensionType::PreSharedKey`, `tls/src/handshake/server_hello.rs:141-159`. -/
def recvPreSharedKey (extensionLen : UInt16) (r : CircleReader) (seen : Seen) : Res (CircleReader × Seen) :=
  if extensionLen ≠ 2 then fail .decodeError
  else r.nextU16 >>= fun identity =>
  if identity.1 ≠ 0 then fail .decodeError
  else .ok (identity.2, { seen with psk := true })

/-- One turn of the loop over the extensions, `tls/src/handshake/server_hello.rs:76-177`. -/
def recvServerExtension (r : CircleReader) (seen : Seen) : Res (CircleReader × Seen) :=
  r.nextU16 >>= fun type =>
  match ExtensionType.tryFrom type.1 with
  | .error _ => fail .illegalParameter
  | .ok extensionType =>
    type.2.nextU16 >>= fun len =>
    (match extensionType with
      | .keyShare => recvKeyShare len.2 seen
      | .supportedVersions => recvSupportedVersions len.2 seen
      | .preSharedKey => recvPreSharedKey len.1 len.2 seen
      | _ => fail .unsupportedExtension) >>= fun x =>
    if len.1 ≠ x.1.ptr - len.2.ptr then fail .decodeError else .ok x

/-- The loop over the extensions, `tls/src/handshake/server_hello.rs:76-177`.  `fuel` bounds the number of turns; running out of
it is `hang`. -/
def recvServerExtensions (fuel : Nat) (extensionsEnd : UInt16) (r : CircleReader) (seen : Seen) : Res Seen :=
  match fuel with
  | 0 => .error (.stop .hang)
  | fuel + 1 =>
    if extensionsEnd > r.ptr then
      recvServerExtension r seen >>= fun x => recvServerExtensions fuel extensionsEnd x.1 x.2
    else .ok seen

/-- `recv_server_hello` after the loop, `tls/src/handshake/server_hello.rs:179-199`. -/
def checkSeen {κ : Type} (pk : Bytes → Option κ) (seen : Seen) : Res κ :=
  if ¬ seen.keyShare then fail .missingExtension
  else if ¬ seen.versions then fail .missingExtension
  else if ¬ seen.psk then fail .missingExtension
  else match pk seen.key with
    | some key => .ok key
    | none => fail .decodeError

/-- `recv_server_hello`, `tls/src/handshake/server_hello.rs:25-200`. -/
def recvServerHello {κ : Type} (fuel : Nat) (pk : Bytes → Option κ) (r : CircleReader) : Res κ :=
  r.nextU16 >>= fun version =>
  if version.1 ≠ 0x0303 then fail .protocolVersion
  else version.2.skipN 32 >>= fun r =>
  r.nextU8 >>= fun idLen =>
  if idLen.1 ≠ 0 then fail .illegalParameter
  else idLen.2.readExact 2 >>= fun suite =>
  match CipherSuite.tryFrom (suite.1.getD 0 0, suite.1.getD 1 0) with
  | .error _ => fail .illegalParameter
  | .ok cipherSuite =>
    if cipherSuite ≠ .aes128GcmSha256 then fail .handshakeFailure
    else suite.2.nextU8 >>= fun compression =>
    if compression.1 ≠ 0 then fail .illegalParameter
    else compression.2.nextU16 >>= fun len =>
    extensionsEnd len.2.ptr len.1 >>= fun extEnd =>
    recvServerExtensions fuel extEnd len.2 {} >>= fun seen =>
    checkSeen pk seen

/-! ## `recv_encrypted_extensions` -/

/-- `ExtensionType::ServerName`, `tls/src/handshake/encrypted_extensions.rs:42-59`; the name is only logged. -/
def recvServerName (extensionLen : UInt16) (r : CircleReader) : Res CircleReader :=
  let readLen := min 253 extensionLen.toNat
  r.readExact readLen >>= fun x =>
  if extensionLen.toNat - readLen > 0 then x.2.skipN (extensionLen - UInt16.ofNat readLen) else .ok x.2

/-- One turn of the loop, `tls/src/handshake/encrypted_extensions.rs:26-120`. -/
def recvEncryptedExtension (r : CircleReader) : Res CircleReader :=
  r.nextU16 >>= fun type =>
  match ExtensionType.tryFrom type.1 with
  | .error _ => fail .illegalParameter
  | .ok extensionType =>
    type.2.nextU16 >>= fun len =>
    (match extensionType with
      | .serverName => recvServerName len.1 len.2
      | .supportedGroups => len.2.skipN len.1
      | .applicationLayerProtocolNegotiation => len.2.skipN len.1
      | _ => fail .unsupportedExtension) >>= fun x =>
    if len.1 ≠ x.ptr - len.2.ptr then fail .decodeError else .ok x

/-- The loop, `tls/src/handshake/encrypted_extensions.rs:26-120`. -/
def recvEncryptedExtensionsLoop (fuel : Nat) (extensionsEnd : UInt16) (r : CircleReader) : Res Unit :=
  match fuel with
  | 0 => .error (.stop .hang)
  | fuel + 1 =>
    if extensionsEnd > r.ptr then
      recvEncryptedExtension r >>= fun r => recvEncryptedExtensionsLoop fuel extensionsEnd r
    else .ok ()

/-- `recv_encrypted_extensions`, `tls/src/handshake/encrypted_extensions.rs:15-123`. -/
def recvEncryptedExtensions (fuel : Nat) (r : CircleReader) : Res Unit :=
  r.nextU16 >>= fun len =>
  extensionsEnd len.2.ptr len.1 >>= fun extEnd =>
  recvEncryptedExtensionsLoop fuel extEnd len.2

end Verif.Tls
