import Verif.Model.Tls.KeySchedule
import Verif.Model.Tls.Buffer
import Verif.Model.Hl.Tcp
/-!
# `tls/src/crypto/record.rs`, and `send_encrypted_record` and `TlsWriter`

A function that returns `Result<_, ε>` and may panic is `X ε σ α`: an error `Fail.err e` is returned, `Fail.stop` and `Fail.noKey`
end the program.
-/
namespace Verif.Tls
open Verif Hl

/-- A fallible computation over a mutable state, which may also panic. -/
def X (ε σ α : Type) : Type := σ → Except (Fail ε) α × σ

namespace X
variable {ε ε' σ τ α β : Type}

def pure (a : α) : X ε σ α := fun s => (.ok a, s)

def bind (m : X ε σ α) (f : α → X ε σ β) : X ε σ β := fun s =>
  match m s with
  | (.ok a, s') => f a s'
  | (.error e, s') => (.error e, s')

instance : Monad (X ε σ) where
  pure := X.pure
  bind := X.bind

/-- `return Err(e)`. -/
def throw (e : ε) : X ε σ α := fun s => (.error (.err e), s)

/-- Return a `Result`, or panic. -/
def ofExcept (r : Except (Fail ε) α) : X ε σ α := fun s => (r, s)

/-- Read the state. -/
def get : X ε σ σ := fun s => (.ok s, s)

/-- Update the state. -/
def modify (f : σ → σ) : X ε σ Unit := fun s => (.ok (), f s)

/-- An error of the bus or of the socket, or a panic. -/
def ofErr : Err → Fail Err
  | .panic => .stop .panic
  | .hang => .stop .hang
  | e => .err e

/-- A function of `w5500-ll` or `w5500-hl`. -/
def ofM (m : M σ α) : X Err σ α := fun s =>
  match m s with
  | (.ok a, s') => (.ok a, s')
  | (.error e, s') => (.error (ofErr e), s')

/-- Change the error, `map_err`. -/
def mapFail (f : ε → ε') : Fail ε → Fail ε'
  | .err e => .err (f e)
  | .stop e => .stop e
  | .noKey => .noKey

/-- `map_err`. -/
def mapErr (f : ε → ε') (m : X ε σ α) : X ε' σ α := fun s =>
  match m s with
  | (.ok a, s') => (.ok a, s')
  | (.error e, s') => (.error (mapFail f e), s')

/-- Keep the `Result` as a value; a panic is still a panic. -/
def attempt (m : X ε σ α) : X ε' σ (Except ε α) := fun s =>
  match m s with
  | (.ok a, s') => (.ok (.ok a), s')
  | (.error (.err e), s') => (.ok (.error e), s')
  | (.error (.stop e), s') => (.error (.stop e), s')
  | (.error .noKey, s') => (.error .noKey, s')

/-- Run on the first component of the state. -/
def onFst (m : X ε σ α) : X ε (σ × τ) α := fun s =>
  match m s.1 with
  | (r, t) => (r, (t, s.2))

end X

/-- `AlertDescription::map_w5500`, `tls/src/alert.rs:259-271`. -/
def mapW5500 : Err → AlertDescription
  | .unexpectedEof => .decodeError
  | _ => .internalError

variable {σ : Type} {x : Crypto}

/-- The result of a cipher function. -/
def ofCipher {ε α : Type} : Except Err α → X ε σ α
  | .ok a => pure a
  | .error e => X.ofExcept (.error (.stop e))

/-! ## Sending -/

/-- The loop over the whole blocks in `encrypt_record_inplace`, `tls/src/crypto/record.rs:118-132`. -/
def encryptBlocksInplace (b : Bus σ) (sn : Sn) : Nat → Aes128Gcm → UInt16 → X Err σ (Aes128Gcm × UInt16)
  | 0, g, head => pure (g, head)
  | k + 1, g, head =>
    X.ofM (b.snTxBuf sn head 16) >>= fun bytes =>
    ofCipher (g.encryptBlock (toBlock bytes)) >>= fun (block, g) =>
    X.ofM (b.setSnTxBuf sn head block.toList) >>= fun _ =>
    encryptBlocksInplace b sn k g (head + 16)

/-- `encrypt_record_inplace`, `tls/src/crypto/record.rs:90-159`. -/
def encryptRecordInplace (b : Bus σ) (sn : Sn) (key : Block) (nonce : Vector UInt8 12) (head tail : UInt16)
    (contentType : ContentType) : X Err σ Unit :=
  let dataLen := tail - head
  let header := RecordHeader.ser .applicationData (tail + 17 - head)
  X.ofM (b.setSnTxBuf sn (head - 5) header.toList) >>= fun _ =>
  encryptBlocksInplace b sn (dataLen / 16).toNat (Aes128Gcm.new key nonce header) head >>= fun (g, head) =>
  let remain := dataLen % 16
  X.ofM (b.snTxBuf sn head remain.toNat) >>= fun bytes =>
  ofCipher (g.encryptRemainder (toBlock (bytes.take remain.toNat ++ [contentType.code])) (remain + 1).toNat) >>= fun (block, g) =>
  X.ofM (b.setSnTxBuf sn head (block.toList.take (remain + 1).toNat)) >>= fun _ =>
  let head := head + (remain + 1)
  X.ofM (b.setSnTxBuf sn head g.finish.toList) >>= fun _ =>
  X.ofM (b.setSnTxWr sn (head + 16)) >>= fun _ =>
  X.ofM (b.setSnCr sn .send)

/-- The `unwrap` of a key. -/
def unwrapKey {ε α : Type} : Option α → X ε σ α
  | some a => pure a
  | none => X.ofExcept (.error .noKey)

/-- `struct TlsWriter`, `tls/src/io.rs:177-184`, is `Ptrs` with the key schedule of the client; its `Seek` is the one of `Ptrs`, and
`TlsWriter::write`, `tls/src/io.rs:214-225`, and `TlsWriter::write_all`, `tls/src/io.rs:227-237`, are `writerWrite` and
`writerWriteAll`.  This is `TlsWriter::send`, `tls/src/io.rs:239-252`. -/
def tlsWriterSend (b : Bus σ) (r : Ptrs) : X Err (σ × KeySchedule x) Unit :=
  X.get >>= fun s =>
  unwrapKey s.2.clientKeyAndNonce >>= fun kn =>
  (encryptRecordInplace b r.sn kn.1 kn.2 r.head r.ptr .applicationData).onFst >>= fun _ =>
  ofCipher s.2.incrementWriteSeq >>= fun ks =>
  X.modify fun s => (s.1, ks)

/-- The loop over `chunks_exact(16)` in `Client::send_encrypted_record`, `tls/src/lib.rs:975-980`: `k` chunks of `data`. -/
def writeChunks (b : Bus σ) : Nat → Aes128Gcm → Ptrs → Bytes → X Err σ (Aes128Gcm × Ptrs)
  | 0, g, r, _ => pure (g, r)
  | k + 1, g, r, data =>
    ofCipher (g.encryptBlock (toBlock (data.take 16))) >>= fun (block, g) =>
    X.ofM (writerWriteAll b r block.toList) >>= fun r =>
    writeChunks b k g r (data.drop 16)

/-- `Client::send_encrypted_record`, `tls/src/lib.rs:949-998`, for the key and the nonce of the client. -/
def sendEncryptedRecord (b : Bus σ) (sn : Sn) (keyNonce : Option (Block × Vector UInt8 12)) (contentType : ContentType)
    (data : Bytes) : X Err σ Unit :=
  if 65536 ≤ data.length + 16 + 1 then X.ofExcept (.error (.stop .panic))
  else
    let header : RecordHeader := RecordHeader.ser .applicationData (UInt16.ofNat (data.length + 16 + 1))
    X.ofM (socketWriter b sn) >>= fun r =>
    X.ofM (writerWriteAll b r header.toList) >>= fun r =>
    unwrapKey keyNonce >>= fun kn =>
    writeChunks b (data.length / 16) (Aes128Gcm.new kn.1 kn.2 header) r data >>= fun (g, r) =>
    let rem := data.drop (data.length / 16 * 16)
    ofCipher (g.encryptRemainder (toBlock (rem ++ [contentType.code])) (rem.length + 1)) >>= fun (block, g) =>
    X.ofM (writerWriteAll b r (block.toList.take (rem.length + 1))) >>= fun r =>
    X.ofM (writerWriteAll b r g.finish.toList) >>= fun r =>
    X.ofM (writerSend b r)

/-! ## Receiving -/

/-- An error of the bus becomes `InternalError`. -/
def internal {α : Type} (m : M σ α) : X AlertDescription σ α := (X.ofM m).mapErr fun _ => .internalError

/-- `buf.extend_from_slice(…)?`. -/
def extendRx (dbg : Bool) (src : Bytes) : X AlertDescription (σ × Buffer) Unit :=
  X.get >>= fun s =>
  X.ofExcept (s.2.extendFromSlice dbg src) >>= fun rx =>
  X.modify fun s => (s.1, rx)

/-- `buf.pop_tail()`. -/
def popTailRx {ε : Type} : X ε (σ × Buffer) (Option UInt8) := fun s =>
  match s.2.popTail with
  | none => (.ok none, s)
  | some (byte, rx) => (.ok (some byte), (s.1, rx))

/-- `buf.pop_tail().unwrap().try_into()`. -/
def popContentType : X AlertDescription (σ × Buffer) (Except UInt8 ContentType) :=
  popTailRx >>= fun byte =>
  match byte with
  | none => X.ofExcept (.error (.stop .panic))
  | some byte => pure (ContentType.tryFrom byte)

/-- The loop of `decrypt_record_inplace`, `tls/src/crypto/record.rs:43-63`; the first argument bounds the number of iterations. -/
def decryptLoop (dbg : Bool) (b : Bus σ) (sn : Sn) : Nat → Aes128Gcm → UInt16 → UInt16 →
    X AlertDescription (σ × Buffer) (Except UInt8 ContentType × Aes128Gcm × UInt16)
  | 0, _, _, _ => X.ofExcept (.error (.stop .hang))
  | fuel + 1, g, rd, remain =>
    let dataLen := min16 16 remain
    (internal (b.snRxBuf sn rd dataLen.toNat)).onFst >>= fun bytes =>
    ofCipher (g.decrypt bytes) >>= fun (plain, g) =>
    extendRx dbg plain >>= fun _ =>
    if remain - dataLen = 0 then popContentType >>= fun ct => pure (ct, g, rd + dataLen)
    else decryptLoop dbg b sn fuel g (rd + dataLen) (remain - dataLen)

/-- The end of `decrypt_record_inplace`, `tls/src/crypto/record.rs:65-86`. -/
def checkTag (b : Bus σ) (sn : Sn) (contentType : Except UInt8 ContentType) (g : Aes128Gcm) (rd : UInt16) :
    X AlertDescription σ (Except UInt8 ContentType) :=
  internal (b.snRxBuf sn rd 16) >>= fun serverTag =>
  internal (b.setSnRxRd sn (rd + 16)) >>= fun _ =>
  internal (b.setSnRxRd sn (rd + 16)) >>= fun _ =>
  internal (b.setSnCr sn .recv) >>= fun _ =>
  if g.finish.toList = serverTag then pure contentType else X.throw .badRecordMac

/-- `decrypt_record_inplace`, `tls/src/crypto/record.rs:11-87`. -/
def decryptRecordInplace (dbg : Bool) (b : Bus σ) (sn : Sn) (key : Block) (nonce : Vector UInt8 12) (header : RecordHeader) :
    X AlertDescription (σ × Buffer) (Except UInt8 ContentType) :=
  (internal (b.snRxRsr sn)).onFst >>= fun rsr =>
  if rsr < header.length then X.throw .decodeError
  else
    (internal (b.snRxRd sn)).onFst >>= fun rd =>
    let remain := if 16 ≤ header.length then header.length - 16 else 0
    if remain = 0 then X.throw .decodeError
    else
      decryptLoop dbg b sn remain.toNat (Aes128Gcm.new key nonce header) rd remain >>= fun (ct, g, rd) =>
      (checkTag b sn ct g rd).onFst

end Verif.Tls
