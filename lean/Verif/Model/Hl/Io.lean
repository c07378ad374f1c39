import Verif.Model.LL
/-!
# `hl/src/io.rs` and `hl/src/lib.rs`
-/
namespace Verif.Hl

/-- `enum SeekFrom`, `hl/src/io.rs:12-19`. -/
inductive SeekFrom where
  | start (offset : UInt16)
  | «end» (offset : Int16)
  | current (offset : Int16)
  deriving DecidableEq

/-- `i16::unsigned_abs`. -/
def unsignedAbs (x : Int16) : UInt16 := UInt16.ofNat x.toInt.natAbs

/-- `SeekFrom::new_ptr`, `hl/src/io.rs:24-52`.  `none` is `Err(Error::UnexpectedEof)`. -/
def SeekFrom.newPtr (pos : SeekFrom) (ptr head tail : UInt16) : Option UInt16 :=
  match pos with
  | .start offset => if offset > tail - head then none else some (head + offset)
  | .«end» offset =>
    if offset > 0 ∨ unsignedAbs offset > tail - head then none else some (tail + offset.toUInt16)
  | .current offset =>
    let maxPos := tail - ptr
    let maxNeg := ptr - head
    if (offset > 0 ∧ unsignedAbs offset > maxPos) ∨ (offset < 0 ∧ unsignedAbs offset > maxNeg) then none
    else some (ptr + offset.toUInt16)

/-- `buf.len().try_into().unwrap_or(u16::MAX)`, e.g. `hl/src/tcp.rs:95`. -/
def lenU16 (n : Nat) : UInt16 := if n ≤ 65535 then UInt16.ofNat n else 65535

/-- `core::cmp::min` on `u16`. -/
def min16 (a b : UInt16) : UInt16 := if a ≤ b then a else b

variable {σ : Type}

/-- `debug_assert!(cond?)`: evaluated in debug builds only (`dbg`); panics when false. -/
def debugAssert (dbg : Bool) (cond : M σ Bool) : M σ Unit :=
  if dbg then do
    let ok ← cond
    if ok then pure () else M.throw .panic
  else pure ()

/-- The loop of `port_is_unique`, `hl/src/lib.rs:122-129`. -/
def portIsUniqueLoop (b : Bus σ) (port : UInt16) : List Sn → M σ Bool
  | [] => pure true
  | s :: rest => do
    let p ← b.snPort s
    if p = port then do
      let status ← b.snSr s
      if status = .ok .closed ∨ status = .ok .closeWait ∨ status = .ok .closing then
        portIsUniqueLoop b port rest
      else pure false
    else portIsUniqueLoop b port rest

/-- `port_is_unique`, `hl/src/lib.rs:113-131`. -/
def portIsUnique (b : Bus σ) (socket : Sn) (port : UInt16) : M σ Bool :=
  portIsUniqueLoop b port (sockets.filter (· ≠ socket))

/-- `Common::local_addr`, `hl/src/lib.rs:205-209`. -/
def localAddr (b : Bus σ) (sn : Sn) : M σ SockAddr := do
  let ip ← b.sipr
  let port ← b.snPort sn
  pure ⟨ip, port⟩

/-- `Common::close`, `hl/src/lib.rs:226-228`. -/
def close (b : Bus σ) (sn : Sn) : M σ Unit := b.setSnCr sn .close

/-- `Common::is_state_closed`, `hl/src/lib.rs:252-254`. -/
def isStateClosed (b : Bus σ) (sn : Sn) : M σ Bool := do
  let sr ← b.snSr sn
  pure (decide (sr = .ok .closed))

/-- `Common::is_state_tcp`, `hl/src/lib.rs:301-318`. -/
def isStateTcp (b : Bus σ) (sn : Sn) : M σ Bool := do
  let sr ← b.snSr sn
  pure (decide (sr = .ok .closed ∨ sr = .ok .listen ∨ sr = .ok .synSent ∨ sr = .ok .synRecv ∨
    sr = .ok .established ∨ sr = .ok .finWait ∨ sr = .ok .closing ∨ sr = .ok .closeWait ∨
    sr = .ok .timeWait ∨ sr = .ok .lastAck))

/-- `Common::is_state_udp`, `hl/src/lib.rs:338-340`. -/
def isStateUdp (b : Bus σ) (sn : Sn) : M σ Bool := do
  let sr ← b.snSr sn
  pure (decide (sr = .ok .udp))

/-- `while self.sn_sr(sn)? != Ok(status) {}`, `hl/src/tcp.rs:304`, `314`, `391`, `399`,
`hl/src/udp.rs:337`, `345`.  The model polls at most `fuel` times; running out is `hang`. -/
def waitStatus (b : Bus σ) (sn : Sn) (status : SocketStatus) : Nat → M σ Unit
  | 0 => M.throw .hang
  | fuel + 1 => do
    let sr ← b.snSr sn
    if sr = .ok status then pure () else waitStatus b sn status fuel

/-- The `debug_assert!(!matches!(sn_sr, Udp | Init | Macraw))` of the TCP functions,
`hl/src/tcp.rs:448-451` and others. -/
def notUdpInitMacraw (b : Bus σ) (sn : Sn) : M σ Bool := do
  let sr ← b.snSr sn
  pure (!decide (sr = .ok .udp ∨ sr = .ok .init ∨ sr = .ok .macraw))

/-- The `debug_assert_eq!(self.sn_sr(sn)?, Ok(SocketStatus::Udp))` of the UDP functions,
`hl/src/udp.rs:409` and others. -/
def srIsUdp (b : Bus σ) (sn : Sn) : M σ Bool := do
  let sr ← b.snSr sn
  pure (decide (sr = .ok .udp))

/-- The operations of the `Read` and `Seek` traits, `hl/src/io.rs:63-121`, over a state `ρ` that
contains the reader and whatever it borrows.  `read n` is `read(&mut buf)` with `buf.len() = n`
and returns the bytes stored (their number is the returned count). -/
structure Reader (ρ : Type) where
  read : Nat → M ρ Bytes
  readExact : Nat → M ρ Bytes
  seek : SeekFrom → M ρ Unit
  rewind : M ρ Unit
  streamLen : M ρ UInt16
  streamPosition : M ρ UInt16
  remain : M ρ UInt16

/-- The operations of the `Write` and `Seek` traits, `hl/src/io.rs:63-98`, `124-158`. -/
structure Writer (ρ : Type) where
  write : Bytes → M ρ UInt16
  writeAll : Bytes → M ρ Unit
  seek : SeekFrom → M ρ Unit
  rewind : M ρ Unit
  streamLen : M ρ UInt16
  streamPosition : M ρ UInt16
  remain : M ρ UInt16
  send : M ρ Unit

end Verif.Hl
