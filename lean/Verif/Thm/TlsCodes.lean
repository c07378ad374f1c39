import Verif.Model.Tls.Codes
import Verif.Proof.Table
/-!
# C78: the code points of TLS 1.3
-/
namespace Verif.Tls
open Verif Spec Mqtt

theorem findCode16_table {α : Type} [DecidableEq α] (code : α → UInt16) (all : List α) (inj : ∀ a b, code a = code b → a = b)
    (full : ∀ a, a ∈ all) : IsCodeTable code (findCode16 code all) := by
  refine isCodeTable_of_check _ _ ?_ ?_
  · intro v
    unfold findCode16
    cases h : all.find? fun a => code v = code a with
    | none =>
      rw [List.find?_eq_none] at h
      exact absurd (decide_eq_true rfl) (h v (full v))
    | some a =>
      have := List.find?_some h
      simp only [decide_eq_true_eq] at this
      rw [inj _ _ this]
  · intro c
    unfold tableCheck findCode16
    cases h : all.find? fun a => c = code a with
    | none => simp
    | some a =>
      have := List.find?_some h
      simp only [decide_eq_true_eq] at this
      simp [this]

/-- A left inverse shows that codes are different. -/
theorem inj_of_index {α : Type} (code : α → UInt16) (all : List α) (h : ∀ a, all.find? (fun b => code a = code b) = some a) :
    ∀ a b, code a = code b → a = b := by
  intro a b e
  have h1 := h a
  rw [e, h b] at h1
  exact (Option.some.inj h1).symm

/-- **C78.**  Record content types, alert levels and descriptions, handshake types, key update requests, extension types, named
groups and cipher suites convert from and to exactly the code points of the standards, and every other number is refused and
returned as it is. -/
theorem C78_codes_convert :
    IsCodeTable ContentType.code ContentType.tryFrom ∧ IsCodeTable AlertLevel.code AlertLevel.tryFrom ∧
    IsCodeTable AlertDescription.code AlertDescription.tryFrom ∧ IsCodeTable HandshakeType.code HandshakeType.tryFrom ∧
    IsCodeTable KeyUpdateRequest.code KeyUpdateRequest.tryFrom ∧ IsCodeTable ExtensionType.code ExtensionType.tryFrom ∧
    IsCodeTable NamedGroup.code NamedGroup.tryFrom ∧ IsCodeTable CipherSuite.value CipherSuite.tryFrom := by
  refine ⟨?_, ?_, ?_, ?_, ?_, ?_, ?_, ?_⟩
  · exact isCodeTable_of_check _ _ (by intro v; cases v <;> decide) (forall_u8 (by decide +kernel))
  · exact isCodeTable_of_check _ _ (by intro v; cases v <;> decide) (forall_u8 (by decide +kernel))
  · exact isCodeTable_of_check _ _ (by intro v; cases v <;> decide) (forall_u8 (by decide +kernel))
  · exact isCodeTable_of_check _ _ (by intro v; cases v <;> decide) (forall_u8 (by decide +kernel))
  · exact isCodeTable_of_check _ _ (by intro v; cases v <;> decide) (forall_u8 (by decide +kernel))
  · exact findCode16_table _ _ (inj_of_index _ ExtensionType.all (by intro a; cases a <;> decide)) (by intro a; cases a <;> decide)
  · exact findCode16_table _ _ (inj_of_index _ [.secp256r1, .secp384r1, .secp521r1, .x25519, .x448, .ffdhe2048, .ffdhe3072,
      .ffdhe4096, .ffdhe6144, .ffdhe8192] (by intro a; cases a <;> decide)) (by intro a; cases a <;> decide)
  · refine isCodeTable_of_check _ _ (by intro v; cases v <;> decide) ?_
    intro c
    unfold tableCheck CipherSuite.tryFrom
    split
    · rename_i v h
      split at h
      · rename_i a ha
        injection h with h
        have := List.find?_some ha
        simp only [decide_eq_true_eq] at this
        simp [this, h]
      · cases h
    · rename_i e h
      split at h
      · cases h
      · injection h with h; simp [h]

/-- The numbers of RFC 8446 (appendix B), RFC 6066, RFC 7301, RFC 7685 and RFC 8449. -/
theorem C78_values :
    ([.changeCipherSpec, .alert, .handshake, .applicationData] : List ContentType).map (·.code.toNat) = [20, 21, 22, 23] ∧
    (AlertLevel.warning.code, AlertLevel.fatal.code) = (1, 2) ∧
    ([.closeNotify, .unexpectedMessage, .badRecordMac, .recordOverflow, .handshakeFailure] : List AlertDescription).map
      (·.code.toNat) = [0, 10, 20, 22, 40] ∧
    ([.badCertificate, .unsupportedCertificate, .certificateRevoked, .certificateExpired, .certificateUnknown,
      .illegalParameter, .unknownCa, .accessDenied, .decodeError, .decryptError] : List AlertDescription).map
      (·.code.toNat) = [42, 43, 44, 45, 46, 47, 48, 49, 50, 51] ∧
    ([.protocolVersion, .insufficientSecurity, .internalError, .inappropriateFallback, .userCanceled, .missingExtension,
      .unsupportedExtension, .unrecognizedName, .badCertificateStatusResponse, .unknownPskIdentity, .certificateRequired,
      .noApplicationProtocol] : List AlertDescription).map (·.code.toNat) = [70, 71, 80, 86, 90, 109, 110, 112, 113, 115, 116, 120] ∧
    ([.clientHello, .serverHello, .newSessionTicket, .endOfEarlyData, .encryptedExtensions, .certificate, .certificateRequest,
      .certificateVerify, .finished, .keyUpdate] : List HandshakeType).map (·.code.toNat) = [1, 2, 4, 5, 8, 11, 13, 15, 20, 24] ∧
    (KeyUpdateRequest.updateNotRequested.code, KeyUpdateRequest.updateRequested.code) = (0, 1) ∧
    ([.serverName, .maxFragmentLength, .statusRequest, .supportedGroups, .signatureAlgorithms, .useSrtp, .heartbeat,
      .applicationLayerProtocolNegotiation, .signedCertificateTimestamp, .clientCertificateType, .serverCertificateType,
      .padding, .recordSizeLimit, .preSharedKey, .earlyData, .supportedVersions, .cookie, .pskKeyExchangeModes,
      .certificateAuthorities, .oidFilters, .postHandshakeAuth, .signatureAlgorithmsCert, .keyShare] : List ExtensionType).map
      (·.code.toNat) = [0, 1, 5, 10, 13, 14, 15, 16, 18, 19, 20, 21, 28, 41, 42, 43, 44, 45, 47, 48, 49, 50, 51] ∧
    ([.secp256r1, .secp384r1, .secp521r1, .x25519, .x448, .ffdhe2048, .ffdhe3072, .ffdhe4096, .ffdhe6144, .ffdhe8192] :
      List NamedGroup).map (·.code.toNat) = [0x17, 0x18, 0x19, 0x1D, 0x1E, 0x100, 0x101, 0x102, 0x103, 0x104] ∧
    ([.aes128GcmSha256, .aes256GcmSha384, .chacha20Poly1305Sha256, .aes128CcmSha256, .aes128Ccm8Sha256] : List CipherSuite).map
      (·.value) = [(0x13, 1), (0x13, 2), (0x13, 3), (0x13, 4), (0x13, 5)] := by
  decide

end Verif.Tls
