import Verif.Model.Mqtt
/-!
# `tls/src/record.rs`, `alert.rs`, `extension.rs`, `cipher_suites.rs` and the enums of `handshake/`
-/
namespace Verif.Tls
open Verif Mqtt

/-- `enum ContentType`, `tls/src/record.rs:23-28`. -/
inductive ContentType where
  | changeCipherSpec | alert | handshake | applicationData
  deriving DecidableEq, Repr

/-- The discriminants, `tls/src/record.rs:23-28`. -/
def ContentType.code : ContentType → UInt8
  | .changeCipherSpec => 20 | .alert => 21 | .handshake => 22 | .applicationData => 23

/-- `TryFrom<u8> for ContentType`, `tls/src/record.rs:37-49`. -/
def ContentType.tryFrom (value : UInt8) : Except UInt8 ContentType :=
  findCode code [.changeCipherSpec, .alert, .handshake, .applicationData] value

/-- `enum AlertLevel`, `tls/src/alert.rs:14-21`. -/
inductive AlertLevel where
  | warning | fatal
  deriving DecidableEq, Repr

/-- The discriminants, `tls/src/alert.rs:14-21`. -/
def AlertLevel.code : AlertLevel → UInt8
  | .warning => 1 | .fatal => 2

/-- `TryFrom<u8> for AlertLevel`, `tls/src/alert.rs:30-40`. -/
def AlertLevel.tryFrom (value : UInt8) : Except UInt8 AlertLevel := findCode code [.warning, .fatal] value

/-- `enum AlertDescription`, `tls/src/alert.rs:86-211`. -/
inductive AlertDescription where
  | closeNotify | unexpectedMessage | badRecordMac | recordOverflow | handshakeFailure | badCertificate
  | unsupportedCertificate | certificateRevoked | certificateExpired | certificateUnknown | illegalParameter | unknownCa
  | accessDenied | decodeError | decryptError | protocolVersion | insufficientSecurity | internalError
  | inappropriateFallback | userCanceled | missingExtension | unsupportedExtension | unrecognizedName
  | badCertificateStatusResponse | unknownPskIdentity | certificateRequired | noApplicationProtocol
  deriving DecidableEq, Repr

/-- The discriminants, `tls/src/alert.rs:86-211`. -/
def AlertDescription.code : AlertDescription → UInt8
  | .closeNotify => 0 | .unexpectedMessage => 10 | .badRecordMac => 20 | .recordOverflow => 22 | .handshakeFailure => 40
  | .badCertificate => 42 | .unsupportedCertificate => 43 | .certificateRevoked => 44 | .certificateExpired => 45
  | .certificateUnknown => 46 | .illegalParameter => 47 | .unknownCa => 48 | .accessDenied => 49 | .decodeError => 50
  | .decryptError => 51 | .protocolVersion => 70 | .insufficientSecurity => 71 | .internalError => 80
  | .inappropriateFallback => 86 | .userCanceled => 90 | .missingExtension => 109 | .unsupportedExtension => 110
  | .unrecognizedName => 112 | .badCertificateStatusResponse => 113 | .unknownPskIdentity => 115
  | .certificateRequired => 116 | .noApplicationProtocol => 120

/-- All of them, in the order of the code. -/
def AlertDescription.all : List AlertDescription :=
  [.closeNotify, .unexpectedMessage, .badRecordMac, .recordOverflow, .handshakeFailure, .badCertificate,
    .unsupportedCertificate, .certificateRevoked, .certificateExpired, .certificateUnknown, .illegalParameter, .unknownCa,
    .accessDenied, .decodeError, .decryptError, .protocolVersion, .insufficientSecurity, .internalError,
    .inappropriateFallback, .userCanceled, .missingExtension, .unsupportedExtension, .unrecognizedName,
    .badCertificateStatusResponse, .unknownPskIdentity, .certificateRequired, .noApplicationProtocol]

/-- `TryFrom<u8> for AlertDescription`, `tls/src/alert.rs:220-256`. -/
def AlertDescription.tryFrom (value : UInt8) : Except UInt8 AlertDescription := findCode code all value

/-- `struct Alert`, `tls/src/alert.rs:279-284`. -/
structure Alert where
  level : AlertLevel
  description : AlertDescription
  deriving DecidableEq, Repr

/-- `Alert::new_fatal`, `tls/src/alert.rs:287-292`. -/
def Alert.newFatal (description : AlertDescription) : Alert := { level := .warning, description }
/-- `Alert::new_warning`, `tls/src/alert.rs:294-299`. -/
def Alert.newWarning (description : AlertDescription) : Alert := { level := .warning, description }

/-- `enum HandshakeType`, `tls/src/handshake/mod.rs:38-52`. -/
inductive HandshakeType where
  | clientHello | serverHello | newSessionTicket | endOfEarlyData | encryptedExtensions | certificate
  | certificateRequest | certificateVerify | finished | keyUpdate
  deriving DecidableEq, Repr

/-- The discriminants, `tls/src/handshake/mod.rs:37-51`. -/
def HandshakeType.code : HandshakeType → UInt8
  | .clientHello => 1 | .serverHello => 2 | .newSessionTicket => 4 | .endOfEarlyData => 5 | .encryptedExtensions => 8
  | .certificate => 11 | .certificateRequest => 13 | .certificateVerify => 15 | .finished => 20 | .keyUpdate => 24

/-- All of them, in the order of the code. -/
def HandshakeType.all : List HandshakeType :=
  [.clientHello, .serverHello, .newSessionTicket, .endOfEarlyData, .encryptedExtensions, .certificate,
    .certificateRequest, .certificateVerify, .finished, .keyUpdate]

/-- `TryFrom<u8> for HandshakeType`, `tls/src/handshake/mod.rs:60-79`. -/
def HandshakeType.tryFrom (value : UInt8) : Except UInt8 HandshakeType := findCode code all value

/-- `enum KeyUpdateRequest`, `tls/src/handshake/key_update.rs:16-19`. -/
inductive KeyUpdateRequest where
  | updateNotRequested | updateRequested
  deriving DecidableEq, Repr

/-- The discriminants, `tls/src/handshake/key_update.rs:16-19`. -/
def KeyUpdateRequest.code : KeyUpdateRequest → UInt8
  | .updateNotRequested => 0 | .updateRequested => 1

/-- `TryFrom<u8> for KeyUpdateRequest`, `tls/src/handshake/key_update.rs:28-38`. -/
def KeyUpdateRequest.tryFrom (value : UInt8) : Except UInt8 KeyUpdateRequest :=
  findCode code [.updateNotRequested, .updateRequested] value

/-- The first value whose 16-bit code is `value`, how the `TryFrom<u16>` implementations below find it. -/
def findCode16 {α : Type} (code : α → UInt16) (all : List α) (value : UInt16) : Except UInt16 α :=
  match all.find? fun a => value = code a with
  | some a => .ok a
  | none => .error value

/-- `enum ExtensionType`, `tls/src/extension.rs:11-35`. -/
inductive ExtensionType where
  | serverName | maxFragmentLength | statusRequest | supportedGroups | signatureAlgorithms | useSrtp | heartbeat
  | applicationLayerProtocolNegotiation | signedCertificateTimestamp | clientCertificateType | serverCertificateType
  | padding | recordSizeLimit | preSharedKey | earlyData | supportedVersions | cookie | pskKeyExchangeModes
  | certificateAuthorities | oidFilters | postHandshakeAuth | signatureAlgorithmsCert | keyShare
  deriving DecidableEq, Repr

/-- The discriminants, `tls/src/extension.rs:11-35`. -/
def ExtensionType.code : ExtensionType → UInt16
  | .serverName => 0 | .maxFragmentLength => 1 | .statusRequest => 5 | .supportedGroups => 10 | .signatureAlgorithms => 13
  | .useSrtp => 14 | .heartbeat => 15 | .applicationLayerProtocolNegotiation => 16 | .signedCertificateTimestamp => 18
  | .clientCertificateType => 19 | .serverCertificateType => 20 | .padding => 21 | .recordSizeLimit => 28
  | .preSharedKey => 41 | .earlyData => 42 | .supportedVersions => 43 | .cookie => 44 | .pskKeyExchangeModes => 45
  | .certificateAuthorities => 47 | .oidFilters => 48 | .postHandshakeAuth => 49 | .signatureAlgorithmsCert => 50
  | .keyShare => 51

/-- All of them, in the order of the code. -/
def ExtensionType.all : List ExtensionType :=
  [.serverName, .maxFragmentLength, .statusRequest, .supportedGroups, .signatureAlgorithms, .useSrtp, .heartbeat,
    .applicationLayerProtocolNegotiation, .signedCertificateTimestamp, .clientCertificateType, .serverCertificateType,
    .padding, .recordSizeLimit, .preSharedKey, .earlyData, .supportedVersions, .cookie, .pskKeyExchangeModes,
    .certificateAuthorities, .oidFilters, .postHandshakeAuth, .signatureAlgorithmsCert, .keyShare]

/-- `TryFrom<u16> for ExtensionType`, `tls/src/extension.rs:54-88`. -/
def ExtensionType.tryFrom (value : UInt16) : Except UInt16 ExtensionType := findCode16 code all value

/-- `enum NamedGroup`, `tls/src/handshake/client_hello.rs:124-140`. -/
inductive NamedGroup where
  | secp256r1 | secp384r1 | secp521r1 | x25519 | x448 | ffdhe2048 | ffdhe3072 | ffdhe4096 | ffdhe6144 | ffdhe8192
  deriving DecidableEq, Repr

/-- The discriminants, `tls/src/handshake/client_hello.rs:124-140`. -/
def NamedGroup.code : NamedGroup → UInt16
  | .secp256r1 => 0x17 | .secp384r1 => 0x18 | .secp521r1 => 0x19 | .x25519 => 0x1D | .x448 => 0x1E | .ffdhe2048 => 0x100
  | .ffdhe3072 => 0x101 | .ffdhe4096 => 0x102 | .ffdhe6144 => 0x103 | .ffdhe8192 => 0x104

/-- `TryFrom<u16> for NamedGroup`, `tls/src/handshake/client_hello.rs:152-170`. -/
def NamedGroup.tryFrom (value : UInt16) : Except UInt16 NamedGroup :=
  findCode16 code [.secp256r1, .secp384r1, .secp521r1, .x25519, .x448, .ffdhe2048, .ffdhe3072, .ffdhe4096, .ffdhe6144,
    .ffdhe8192] value

/-- `enum SignatureScheme`, `tls/src/handshake/client_hello.rs:46-71`; only those that the client offers. -/
inductive SignatureScheme where
  | rsaPkcs1Sha256 | rsaPkcs1Sha384 | rsaPkcs1Sha512 | ecdsaSecp256r1Sha256 | ecdsaSecp384r1Sha384 | rsaPssRsaeSha256
  | rsaPssRsaeSha384 | rsaPssRsaeSha512 | ed25519
  deriving DecidableEq, Repr

/-- The discriminants, `tls/src/handshake/client_hello.rs:45-70`. -/
def SignatureScheme.code : SignatureScheme → UInt16
  | .rsaPkcs1Sha256 => 0x0401 | .rsaPkcs1Sha384 => 0x0501 | .rsaPkcs1Sha512 => 0x0601 | .ecdsaSecp256r1Sha256 => 0x0403
  | .ecdsaSecp384r1Sha384 => 0x0503 | .rsaPssRsaeSha256 => 0x0804 | .rsaPssRsaeSha384 => 0x0805
  | .rsaPssRsaeSha512 => 0x0806 | .ed25519 => 0x0807

/-- `enum CipherSuite`, `tls/src/cipher_suites.rs:21-28`. -/
inductive CipherSuite where
  | aes128GcmSha256 | aes256GcmSha384 | chacha20Poly1305Sha256 | aes128CcmSha256 | aes128Ccm8Sha256
  deriving DecidableEq, Repr

/-- `CipherSuite::value`, `tls/src/cipher_suites.rs:31-39`. -/
def CipherSuite.value : CipherSuite → UInt8 × UInt8
  | .aes128GcmSha256 => (0x13, 0x01) | .aes256GcmSha384 => (0x13, 0x02) | .chacha20Poly1305Sha256 => (0x13, 0x03)
  | .aes128CcmSha256 => (0x13, 0x04) | .aes128Ccm8Sha256 => (0x13, 0x05)

/-- `TryFrom<[u8; 2]> for CipherSuite`, `tls/src/cipher_suites.rs:49-62`. -/
def CipherSuite.tryFrom (value : UInt8 × UInt8) : Except (UInt8 × UInt8) CipherSuite :=
  match [CipherSuite.aes128GcmSha256, .aes256GcmSha384, .chacha20Poly1305Sha256, .aes128CcmSha256,
      .aes128Ccm8Sha256].find? fun a => value = a.value with
  | some a => .ok a
  | none => .error value

/-- The ways a computation of the TLS crate ends early: with an error value, or not at all (a panic, or a loop that used
up the iterations given to the model).  `noKey` is the panic of an `unwrap` of a key that has not been derived. -/
inductive Fail (ε : Type) where
  | err (e : ε)
  | stop (e : Err)
  | noKey
  deriving DecidableEq, Repr

/-- `Result<T, AlertDescription>`, or a panic. -/
abbrev Res (α : Type) := Except (Fail AlertDescription) α

/-- `struct RecordHeader`, `tls/src/record.rs:63-65`: five bytes. -/
abbrev RecordHeader := Vector UInt8 5

/-- `RecordHeader::ser`, `tls/src/record.rs:84-94`. -/
def RecordHeader.ser (contentType : ContentType) (dataLen : UInt16) : RecordHeader :=
  #v[contentType.code, 3, 3, (dataLen >>> 8).toUInt8, dataLen.toUInt8]

/-- `RecordHeader::deser`, `tls/src/record.rs:96-112`. -/
def RecordHeader.deser (buf : Vector UInt8 5) : Res RecordHeader :=
  match ContentType.tryFrom buf[0] with
  | .ok _ => .ok buf
  | .error _ => .error (.err .illegalParameter)

/-- `RecordHeader::content_type`, `tls/src/record.rs:70-73`; `none` is the `unwrap` that panics, which no header made by
`ser` or `deser` reaches. -/
def RecordHeader.contentType (h : RecordHeader) : Option ContentType := (ContentType.tryFrom h[0]).toOption

/-- `RecordHeader::length`, `tls/src/record.rs:75-78`. -/
def RecordHeader.length (h : RecordHeader) : UInt16 := be16 h[3] h[4]

/-- `struct HandshakeHeader`, `tls/src/handshake/mod.rs:104-106`: four bytes. -/
abbrev HandshakeHeader := Vector UInt8 4

/-- `HandshakeHeader::msg_type`, `tls/src/handshake/mod.rs:117-119`. -/
def HandshakeHeader.msgType (h : HandshakeHeader) : Except UInt8 HandshakeType := HandshakeType.tryFrom h[0]

/-- `HandshakeHeader::length`, `tls/src/handshake/mod.rs:121-123`. -/
def HandshakeHeader.length (h : HandshakeHeader) : UInt32 := be32 h[0] h[1] h[2] h[3] &&& 0x00FFFFFF

/-- `HandshakeHeader::length_with_header`, `tls/src/handshake/mod.rs:125-127`; the sum cannot overflow. -/
def HandshakeHeader.lengthWithHeader (h : HandshakeHeader) : UInt32 := h.length + 4

end Verif.Tls
