import Verif.Spec.TlsKeys
/-!
# The client hello, RFC 8446 section 4.1.2, that offers TLS 1.3 with one pre-shared key
-/
namespace Verif.Spec.Tls
open Verif

/-- What the client hello is made from. -/
structure Offer where
  random : Bytes
  host : Bytes
  publicKey : Bytes
  psk : Bytes
  identity : Bytes
  limit : Nat

/-- The extensions, with the binder of the pre-shared key. -/
def Offer.extensions (o : Offer) (binder : Bytes) : List Bytes :=
  [ -- supported_groups: secp256r1
    extension 10 (vec16 (u16 0x0017)),
    -- psk_key_exchange_modes: psk_dhe_ke
    extension 45 (vec8 [1]),
    -- supported_versions: TLS 1.3
    extension 43 (vec8 (u16 0x0304)),
    -- signature_algorithms
    extension 13 (vec16 ([0x0401, 0x0501, 0x0601, 0x0403, 0x0503, 0x0804, 0x0805, 0x0806, 0x0807].flatMap u16)),
    -- server_name (RFC 6066): one host_name
    extension 0 (vec16 ([0] ++ vec16 o.host)),
    -- key_share: one entry, secp256r1
    extension 51 (vec16 (u16 0x0017 ++ vec16 o.publicKey)),
    -- record_size_limit (RFC 8449)
    extension 28 (u16 o.limit),
    -- pre_shared_key, which must be the last one: one identity, with a ticket age of 0, and one binder
    extension 41 (vec16 (vec16 o.identity ++ [0, 0, 0, 0]) ++ vec16 (vec8 binder)) ]

/-- `ClientHello`: the version of TLS 1.2, the random bytes, no session id, `TLS_AES_128_GCM_SHA256`, no compression, extensions. -/
def Offer.body (o : Offer) (binder : Bytes) : Bytes :=
  u16 0x0303 ++ o.random ++ vec8 [] ++ vec16 [0x13, 0x01] ++ vec8 [0] ++ vec16 (o.extensions binder).flatten

/-- The handshake message: the type `client_hello` (1), a length of three bytes and the body. -/
def Offer.message (o : Offer) (binder : Bytes) : Bytes :=
  [1] ++ ([UInt8.ofNat ((o.body binder).length / 65536)] ++ u16 (o.body binder).length) ++ o.body binder

/-- Section 4.2.11.2: the message up to and including the identities, without the list of binders: its length of two bytes, the
length of the binder, and its 32 bytes. The lengths in it are those with a binder in place. -/
def Offer.truncated (o : Offer) : Bytes :=
  let m := o.message zeros
  m.take (m.length - (2 + 1 + 32))

/-- The client hello with the right binder. -/
def Offer.hello (o : Offer) : Bytes := o.message (binder o.psk o.truncated)

/-- The record with it: `handshake` (22), the version of TLS 1.2. -/
def Offer.record (o : Offer) : Bytes := [22] ++ u16 0x0303 ++ vec16 o.hello

end Verif.Spec.Tls
