import Verif.Model.Tls.Gcm
import Verif.Model.Tls.Codes
/-!
# `tls/src/key_schedule.rs`

SHA-256, HMAC, HKDF and elliptic curve Diffie-Hellman come from other crates (`sha2`, `hmac`, `hkdf`, `p256`); they are arguments
of the model.  A `Hkdf` is its pseudo-random key.  A `Sha256` that has not been finalized is the bytes it was given so far.
-/
namespace Verif.Tls
open Verif

/-- The functions of other crates. -/
structure Crypto where
  /-- `p256::ecdh::EphemeralSecret`. -/
  Secret : Type
  /-- `p256::PublicKey`. -/
  Public : Type
  /-- `Sha256::digest`. -/
  sha256 : Bytes → Bytes
  /-- HMAC-SHA-256 of a key and a message. -/
  hmac : Bytes → Bytes → Bytes
  /-- `Hkdf::<Sha256>::extract` of a salt and input key material. -/
  extract : Bytes → Bytes → Bytes
  /-- `Hkdf::<Sha256>::expand` of a pseudo-random key, `info` and a length. -/
  expand : Bytes → Bytes → Nat → Bytes
  /-- `diffie_hellman`, `tls/src/crypto/p256/rust_crypto.rs:19-26`. -/
  dh : Secret → Public → Bytes
  /-- `public_key_from_sec1_bytes`, `tls/src/crypto/p256/rust_crypto.rs:6-8`. -/
  sec1 : Bytes → Option Public

/-- `EMPTY_HASH`, `tls/src/key_schedule.rs:28-31`. -/
def emptyHash : Bytes :=
  [0xE3, 0xB0, 0xC4, 0x42, 0x98, 0xFC, 0x1C, 0x14, 0x9A, 0xFB, 0xF4, 0xC8, 0x99, 0x6F, 0xB9, 0x24,
    0x27, 0xAE, 0x41, 0xE4, 0x64, 0x9B, 0x93, 0x4C, 0xA4, 0x95, 0x99, 0x1B, 0x78, 0x52, 0xB8, 0x55]

/-- `ZEROS_OF_HASH_LEN`, `tls/src/key_schedule.rs:34`. -/
def zerosOfHashLen : Bytes := List.replicate 32 0

/-- `b"..."`. -/
def ascii (s : String) : Bytes := s.toList.map fun c => UInt8.ofNat c.toNat

/-- `hkdf_label`, `tls/src/key_schedule.rs:50-66`.  The labels and contexts in use are at most 12 and 32 bytes long, so that the
`unwrap`s succeed. -/
def hkdfLabel (len : UInt16) (label context : Bytes) : Bytes :=
  toBe16 len ++ [UInt8.ofNat (label.length + (ascii "tls13 ").length)] ++ ascii "tls13 " ++ label ++
    [UInt8.ofNat context.length] ++ context

/-- `hkdf_expand_label`, `tls/src/key_schedule.rs:78-87`; `n` is the size of the array. -/
def hkdfExpandLabel (x : Crypto) (secret label context : Bytes) (n : Nat) : Bytes :=
  x.expand secret (hkdfLabel (UInt16.ofNat n) label context) n

/-- `derive_secret`, `tls/src/key_schedule.rs:100-114`. -/
def deriveSecret (x : Crypto) (secret label context : Bytes) : Bytes :=
  x.expand secret (hkdfLabel 32 label context) 32

/-- `struct KeySchedule`, `tls/src/key_schedule.rs:116-143`. -/
structure KeySchedule (x : Crypto) where
  clientSecret : Option x.Secret
  serverPublic : Option x.Public
  transcript : Bytes
  readSeq : UInt64
  writeSeq : UInt64
  hkdf : Bytes
  secret : Bytes
  clientTraffic : Option Bytes
  serverTraffic : Option Bytes

namespace KeySchedule
variable {x : Crypto}

/-- `KeySchedule::default`, `tls/src/key_schedule.rs:146-162`; `KeySchedule::reset`, `tls/src/key_schedule.rs:185-187`. -/
def default (x : Crypto) : KeySchedule x :=
  let hkdf := x.extract zerosOfHashLen zerosOfHashLen
  { clientSecret := none, serverPublic := none, transcript := [], readSeq := 0, writeSeq := 0, hkdf
    secret := deriveSecret x hkdf (ascii "derived") emptyHash, clientTraffic := none, serverTraffic := none }

/-- `KeySchedule::increment_read_record_sequence_number`, `tls/src/key_schedule.rs:169-175`. -/
def incrementReadSeq (k : KeySchedule x) : Except Err (KeySchedule x) :=
  if k.readSeq.toNat + 1 < 2 ^ 64 then .ok { k with readSeq := k.readSeq + 1 } else .error .panic

/-- `KeySchedule::increment_write_record_sequence_number`, `tls/src/key_schedule.rs:176-183`. -/
def incrementWriteSeq (k : KeySchedule x) : Except Err (KeySchedule x) :=
  if k.writeSeq.toNat + 1 < 2 ^ 64 then .ok { k with writeSeq := k.writeSeq + 1 } else .error .panic

/-- `KeySchedule::transcript_hash_bytes`, `tls/src/key_schedule.rs:201-203`. -/
def transcriptHash (k : KeySchedule x) : Bytes := x.sha256 k.transcript

/-- `KeySchedule::shared_secret`, `tls/src/key_schedule.rs:217-222`. -/
def sharedSecret (k : KeySchedule x) : Option Bytes :=
  match k.clientSecret, k.serverPublic with
  | some s, some p => some (x.dh s p)
  | _, _ => none

/-- `KeySchedule::binder_key`, `tls/src/key_schedule.rs:224-228`.  `extract` gives the pseudo-random key and the `Hkdf` made of it. -/
def binderKey (k : KeySchedule x) (psk : Bytes) : Bytes × KeySchedule x :=
  let prk := x.extract zerosOfHashLen psk
  let k := { k with secret := prk, hkdf := prk }
  (deriveSecret x k.hkdf (ascii "ext binder") emptyHash, k)

/-- `KeySchedule::binder`, `tls/src/key_schedule.rs:230-244`. -/
def binder (k : KeySchedule x) (psk truncated : Bytes) : Bytes × KeySchedule x :=
  let y := k.binderKey psk
  let key := hkdfExpandLabel x y.1 (ascii "finished") [] 32
  (x.hmac key (x.sha256 truncated), y.2)

/-- `KeySchedule::initialize_early_secret`, `tls/src/key_schedule.rs:246-259`. -/
def initializeEarlySecret (k : KeySchedule x) : KeySchedule x :=
  { k with
    clientTraffic := some (deriveSecret x k.hkdf (ascii "c e traffic") k.transcriptHash)
    secret := deriveSecret x k.hkdf (ascii "derived") emptyHash, readSeq := 0, writeSeq := 0 }

/-- `KeySchedule::initialize_handshake_secret`, `tls/src/key_schedule.rs:261-280`. -/
def initializeHandshakeSecret (k : KeySchedule x) : Option (KeySchedule x) :=
  match k.sharedSecret with
  | none => none
  | some shared =>
    let hkdf := x.extract k.secret shared
    some { k with
      hkdf
      clientTraffic := some (deriveSecret x hkdf (ascii "c hs traffic") k.transcriptHash)
      serverTraffic := some (deriveSecret x hkdf (ascii "s hs traffic") k.transcriptHash)
      secret := deriveSecret x hkdf (ascii "derived") emptyHash, readSeq := 0, writeSeq := 0 }

/-- `KeySchedule::initialize_master_secret`, `tls/src/key_schedule.rs:282-300`. -/
def initializeMasterSecret (k : KeySchedule x) : KeySchedule x :=
  let hkdf := x.extract k.secret zerosOfHashLen
  { k with
    hkdf
    clientTraffic := some (deriveSecret x hkdf (ascii "c ap traffic") k.transcriptHash)
    serverTraffic := some (deriveSecret x hkdf (ascii "s ap traffic") k.transcriptHash)
    secret := deriveSecret x hkdf (ascii "derived") emptyHash, readSeq := 0, writeSeq := 0 }

/-- `KeySchedule::update_traffic_secret`, `tls/src/key_schedule.rs:313-331`. -/
def updateTrafficSecret (k : KeySchedule x) : KeySchedule x :=
  let hkdf := x.extract k.secret zerosOfHashLen
  { k with
    hkdf
    clientTraffic := some (deriveSecret x hkdf (ascii "traffic upd") k.transcriptHash)
    serverTraffic := some (deriveSecret x hkdf (ascii "traffic upd") k.transcriptHash)
    secret := deriveSecret x hkdf (ascii "derived") emptyHash, readSeq := 0, writeSeq := 0 }

/-- The key and the nonce for a traffic secret and a sequence number, the body of `KeySchedule::client_key_and_nonce` and
`KeySchedule::server_key_and_nonce`, `tls/src/key_schedule.rs:359-370`: `iv[idx + 4] ^= byte`. -/
def keyAndNonce (x : Crypto) (traffic : Bytes) (seq : UInt64) : Block × Vector UInt8 12 :=
  let key := hkdfExpandLabel x traffic (ascii "key") [] 16
  let iv := hkdfExpandLabel x traffic (ascii "iv") [] 12
  (toBlock key, Vector.ofFn fun i : Fin 12 =>
    if i.val < 4 then iv.getD i.val 0 else iv.getD i.val 0 ^^^ (be64 seq).getD (i.val - 4) 0)

/-- `KeySchedule::client_key_and_nonce`, `tls/src/key_schedule.rs:337-348`. -/
def clientKeyAndNonce (k : KeySchedule x) : Option (Block × Vector UInt8 12) :=
  k.clientTraffic.map fun t => keyAndNonce x t k.writeSeq

/-- `KeySchedule::server_key_and_nonce`, `tls/src/key_schedule.rs:359-370`. -/
def serverKeyAndNonce (k : KeySchedule x) : Option (Block × Vector UInt8 12) :=
  k.serverTraffic.map fun t => keyAndNonce x t k.readSeq

/-- `KeySchedule::verify_server_finished`, `tls/src/key_schedule.rs:389-404`. -/
def verifyServerFinished (k : KeySchedule x) (finished : Bytes) : Res Unit :=
  match k.serverTraffic with
  | none => .error .noKey
  | some t =>
    if x.hmac (hkdfExpandLabel x t (ascii "finished") [] 32) k.transcriptHash = finished then .ok ()
    else .error (.err .decryptError)

/-- `KeySchedule::client_finished_verify_data`, `tls/src/key_schedule.rs:406-416`. -/
def clientFinishedVerifyData (k : KeySchedule x) : Option Bytes :=
  k.clientTraffic.map fun t => x.hmac (hkdfExpandLabel x t (ascii "finished") [] 32) k.transcriptHash

end KeySchedule

end Verif.Tls
