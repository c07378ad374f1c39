import Verif.Model.Basic
/-!
# Server hello and encrypted extensions (RFC 8446 section 4.1.3, 4.2 and 4.3.1)

Written from the RFC; nothing here refers to the model of the code.
-/
namespace Verif.Spec.Tls
open Verif

/-- The two bytes of a 16 bit number, the more significant one first. -/
def u16 (n : Nat) : Bytes := [UInt8.ofNat (n / 256), UInt8.ofNat n]

/-- An extension on the wire: its type, the length of its data, its data. -/
def extension (type : Nat) (data : Bytes) : Bytes := u16 type ++ u16 data.length ++ data

/-- The extensions that a client may accept in a server hello, if it has offered nothing but secp256r1, TLS 1.3 and one pre-shared
key. -/
inductive HelloExtension where
  /-- `key_share` (51): the group secp256r1 (0x0017) and the public key of the server. -/
  | keyShare (key : Bytes)
  /-- `supported_versions` (43): TLS 1.3. -/
  | tls13
  /-- `pre_shared_key` (41): the first identity. -/
  | firstIdentity
  deriving DecidableEq

/-- The bytes of such an extension. -/
def HelloExtension.bytes : HelloExtension → Bytes
  | .keyShare key => extension 51 (u16 0x0017 ++ u16 key.length ++ key)
  | .tls13 => extension 43 (u16 0x0304)
  | .firstIdentity => extension 41 (u16 0)

/-- The bytes of a list of extensions, without the length in front. -/
def HelloExtension.listBytes (l : List HelloExtension) : Bytes := l.flatMap HelloExtension.bytes

/-- The body of a server hello that selects `TLS_AES_128_GCM_SHA256` (0x1301) and no compression and echoes the empty session id.
`len` stands where the length of the extensions belongs. -/
def helloBytes (random : Bytes) (len : Nat) (extensions : Bytes) : Bytes :=
  u16 0x0303 ++ random ++ [0] ++ [0x13, 0x01] ++ [0] ++ u16 len ++ extensions

/-- The extensions select exactly one key share, with `key`, exactly one version, and a pre-shared key. -/
structure Selects (l : List HelloExtension) (key : Bytes) : Prop where
  keySize : key.length = 65
  share : l.filter (fun e => e matches .keyShare _) = [.keyShare key]
  version : l.count .tls13 = 1
  identity : HelloExtension.firstIdentity ∈ l

/-- The encrypted extensions that the client ignores: `server_name` (0), `supported_groups` (10) and
`application_layer_protocol_negotiation` (16). -/
structure Ignored where
  type : Nat
  data : Bytes
  known : type = 0 ∨ type = 10 ∨ type = 16

/-- The bytes of such extensions. -/
def Ignored.listBytes (l : List Ignored) : Bytes := l.flatMap fun e => extension e.type e.data

end Verif.Spec.Tls
