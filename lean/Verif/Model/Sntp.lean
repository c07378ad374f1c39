import Verif.Model.Hl.Prog
/-!
# `sntp/src/lib.rs`, `sntp/src/timestamp.rs`, `sntp/src/fixed_point.rs`
-/
namespace Verif.Sntp
open Verif.Hl
variable {σ : Type}

/-- `VERSION_NUMBER`, `sntp/src/lib.rs:57`. -/
def versionNumber : UInt8 := 4

/-- `enum LeapIndicator`, `sntp/src/lib.rs:391-401`. -/
inductive LeapIndicator where
  | noWarning | lastMin61Sec | lastMin59Sec | alarm
  deriving DecidableEq, Repr

/-- The discriminants of `LeapIndicator`, `sntp/src/lib.rs:393-400`. -/
def LeapIndicator.toU8 : LeapIndicator → UInt8
  | .noWarning => 0 | .lastMin61Sec => 1 | .lastMin59Sec => 2 | .alarm => 3

/-- `LeapIndicator::from_bits`, `sntp/src/lib.rs:404-412`.  The `unreachable!()` arm is merged with the last. -/
def LeapIndicator.fromBits (bits : UInt8) : LeapIndicator :=
  let x := bits &&& 3
  if x = LeapIndicator.noWarning.toU8 then .noWarning
  else if x = LeapIndicator.lastMin61Sec.toU8 then .lastMin61Sec
  else if x = LeapIndicator.lastMin59Sec.toU8 then .lastMin59Sec
  else .alarm

/-- `enum Mode`, `sntp/src/lib.rs:424-430`. -/
inductive Mode where
  | symmetricActive | symmetricPassive | client | server | broadcast
  deriving DecidableEq, Repr

/-- The discriminants of `Mode`, `sntp/src/lib.rs:425-429`. -/
def Mode.toU8 : Mode → UInt8
  | .symmetricActive => 1 | .symmetricPassive => 2 | .client => 3 | .server => 4 | .broadcast => 5

/-- `impl TryFrom<u8> for Mode`, `sntp/src/lib.rs:432-445`; `none` is `Err(x)`. -/
def Mode.tryFrom (x : UInt8) : Option Mode :=
  if x = Mode.symmetricActive.toU8 then some .symmetricActive
  else if x = Mode.symmetricPassive.toU8 then some .symmetricPassive
  else if x = Mode.client.toU8 then some .client
  else if x = Mode.server.toU8 then some .server
  else if x = Mode.broadcast.toU8 then some .broadcast
  else none

/-- `enum Stratum`, `sntp/src/lib.rs:451-462`. -/
inductive Stratum where
  | kod | primary | secondary (n : UInt8)
  deriving DecidableEq, Repr

/-- `impl TryFrom<u8> for Stratum`, `sntp/src/lib.rs:464-475`. -/
def Stratum.tryFrom (bits : UInt8) : Option Stratum :=
  if bits = 0 then some .kod
  else if bits = 1 then some .primary
  else if 2 ≤ bits ∧ bits ≤ 15 then some (.secondary bits)
  else none

/-- `struct Reply`, `sntp/src/lib.rs:343-384`.  `FixedPoint` and `Timestamp` are their `bits`; `precision: i8` is kept
as the integer it denotes. -/
structure Reply where
  leapIndicator : LeapIndicator
  stratum : Stratum
  precision : Int
  rootDelay : UInt32
  rootDispersion : UInt32
  referenceIdentifier : Bytes
  referenceTimestamp : UInt64
  originateTimestamp : UInt64
  receiveTimestamp : UInt64
  transmitTimestamp : UInt64
  deriving DecidableEq, Repr

/-- `struct Client`, `sntp/src/lib.rs:62-71`. -/
structure Client where
  sn : Sn
  port : UInt16
  server : SockAddr
  deriving DecidableEq

/-- `buf[i]`. -/
def at' (buf : Bytes) (i : Nat) : UInt8 := buf.getD i 0

/-- `u32::from_be_bytes(buf[i..i+4])`. -/
def u32At (buf : Bytes) (i : Nat) : UInt32 := be32 (at' buf i) (at' buf (i + 1)) (at' buf (i + 2)) (at' buf (i + 3))

/-- `u64::from_be_bytes(buf[i..i+8])`. -/
def u64At (buf : Bytes) (i : Nat) : UInt64 := (u32At buf i).toUInt64 <<< 32 ||| (u32At buf (i + 4)).toUInt64

/-- `buf[3] as i8`. -/
def asI8 (x : UInt8) : Int := if x < 128 then (x.toNat : Int) else (x.toNat : Int) - 256

/-- `Client::request`, `sntp/src/lib.rs:178-205`: `REQUEST_PKT`. -/
def requestPkt : Bytes :=
  ((LeapIndicator.noWarning.toU8 <<< 6) ||| (versionNumber <<< 3) ||| Mode.client.toU8) :: List.replicate 47 0

/-- `Client::request`, `sntp/src/lib.rs:207-209`. -/
def request (b : Bus σ) (c : Client) : M σ Unit := do
  let w ← socketWriter b c.sn
  let (_, w) ← onWriter b w (.doWriteAll requestPkt)
  writerSend b w

/-- `Client::setup_socket`, `sntp/src/lib.rs:128-136`. -/
def setupSocket (dbg : Bool) (fuel : Nat) (b : Bus σ) (c : Client) : M σ Unit := do
  let simr ← b.simr
  b.setSimr (c.sn.bitmask ||| simr)
  b.setSnImr c.sn SocketInterruptMask.allMasked.unmaskRecv
  close b c.sn
  udpBind dbg fuel b c.sn c.port
  b.setSnDest c.sn c.server

/-- `Client::on_recv_interrupt` after `buf` was read, `sntp/src/lib.rs:281-339`; `none` is `Err(Error::WouldBlock)`. -/
def decodeReply (buf : Bytes) : Option Reply :=
  if Mode.tryFrom (at' buf 0 &&& 7) = some .server then
    let versionNumber' := (at' buf 0 >>> 3) &&& 7
    if versionNumber' = versionNumber then
      let leap := LeapIndicator.fromBits (at' buf 0 >>> 6)
      match Stratum.tryFrom (at' buf 1) with
      | some stratum =>
        if at' buf 2 = 0 then
          some
            { leapIndicator := leap
              stratum := stratum
              precision := asI8 (at' buf 3)
              rootDelay := u32At buf 4
              rootDispersion := u32At buf 8
              referenceIdentifier := (buf.drop 12).take 4
              referenceTimestamp := u64At buf 16
              originateTimestamp := u64At buf 24
              receiveTimestamp := u64At buf 32
              transmitTimestamp := u64At buf 40 }
        else none
      | none => none
    else none
  else none

/-- `sntp/src/lib.rs:265-268`: clear what is pending. -/
def clearIr (b : Bus σ) (sn : Sn) : M σ Unit := do
  let ir ← b.snIr sn
  if ir.anyRaised then b.setSnIr sn ir.raw else pure ()

/-- `sntp/src/lib.rs:281-339` as a result. -/
def replyOf (buf : Bytes) : M σ Reply :=
  match decodeReply buf with
  | some r => pure r
  | none => M.throw .wouldBlock

/-- `sntp/src/lib.rs:273-339`: a datagram is there. -/
def onDatagram (b : Bus σ) (c : Client) (u : UdpReader) : M σ Reply :=
  if u.header.origin ≠ c.server then udpReaderDone b u >>= fun _ => M.throw .wouldBlock
  else onUdpReader b u (.doReadExact 48) >>= fun x => udpReaderDone b x.2 >>= fun _ => replyOf x.1

/-- `Client::on_recv_interrupt`, `sntp/src/lib.rs:261-340`. -/
def onRecvInterrupt (dbg : Bool) (b : Bus σ) (c : Client) : M σ Reply := do
  clearIr b c.sn
  let u ← udpReader dbg b c.sn
  onDatagram b c u

/-! ## Timestamps -/

/-- `Timestamp::new`, `sntp/src/timestamp.rs:14-22`.  `nanos * u32::MAX` does not overflow: the only caller
passes fewer than 10^9 nanoseconds. -/
def Timestamp.new (secs nanos : UInt64) : UInt64 :=
  let upper : UInt32 :=
    if secs.toNat < 4294967296 then secs.toUInt32
    else
      let s := if secs < 4294967296 then 0 else secs - 4294967296
      if s.toNat < 4294967296 then s.toUInt32 else 0xFFFFFFFF
  let lower : UInt32 := ((nanos * 4294967295) / 1000000000).toUInt32
  (upper.toUInt64 <<< 32) ||| lower.toUInt64

/-- `Timestamp::secs`, `sntp/src/timestamp.rs:26-36`. -/
def Timestamp.secs (bits : UInt64) : Int :=
  let secondsBits : UInt32 := (bits >>> 32).toUInt32
  if secondsBits &&& 0x80000000 ≠ 0 then (secondsBits.toNat : Int)
  else (secondsBits.toNat : Int) + 4294967295 + 1

/-- `Timestamp::nanos`, `sntp/src/timestamp.rs:40-43`. -/
def Timestamp.nanos (bits : UInt64) : UInt32 := ((bits &&& 0xFFFFFFFF) * 1000000000 / 4294967295).toUInt32

/-- `impl TryFrom<chrono::NaiveDateTime> for Timestamp`, `sntp/src/timestamp.rs:70-89`.  A date is the number of
nanoseconds since 1900-01-01 00:00:00, so `elapsed` is the argument; `num_seconds` rounds towards zero.  `none` is
`Err(TimestampError)`.  A `TimeDelta` holds fewer than 2^63 milliseconds, so `try_seconds` succeeds and the remainder fits. -/
def Timestamp.fromDate (elapsed : Int) : Option UInt64 :=
  let secs : Int := elapsed.tdiv 1000000000
  let nanos : Int := elapsed - secs * 1000000000
  if nanos < 0 then none
  else if secs < 0 then none
  else some (Timestamp.new (UInt64.ofNat secs.toNat) (UInt64.ofNat nanos.toNat))

/-- `impl TryFrom<Timestamp> for chrono::NaiveDateTime` and `for time::PrimitiveDateTime`, `sntp/src/timestamp.rs:91-130`,
as the number of nanoseconds since 1900-01-01 00:00:00.  Both succeed: the dates (until 2104) are within the range of the
two crates. -/
def Timestamp.toDate (bits : UInt64) : Int := Timestamp.secs bits * 1000000000 + ((Timestamp.nanos bits).toNat : Int)

/-! ## Fixed point numbers -/

/-- `FixedPoint::raw_whole`, `sntp/src/fixed_point.rs:18-20`. -/
def FixedPoint.rawWhole (bits : UInt32) : UInt32 := bits >>> 16
/-- `FixedPoint::raw_fractional`, `sntp/src/fixed_point.rs:22-24`. -/
def FixedPoint.rawFractional (bits : UInt32) : UInt32 := bits &&& 0xFFFF
/-- `impl From<FixedPoint> for num_rational::Ratio<u32>`, `sntp/src/fixed_point.rs:27-35`: numerator and denominator.  The
conversions to `f32` and `f64` (lines 37-47) round the same quotient. -/
def FixedPoint.ratio (bits : UInt32) : UInt32 × UInt32 :=
  (FixedPoint.rawWhole bits * 65535 + FixedPoint.rawFractional bits, 65535)

end Verif.Sntp
