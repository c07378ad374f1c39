import Verif.Model.Hl.Prog
import Verif.Model.Hl.Hostname
import Verif.Model.Rand
import Verif.Model.Str
/-!
# `dns/src`: the DNS and MDNS clients
-/
namespace Verif.Dns
open Verif.Hl
variable {σ : Type}

/-- `enum Qtype`, `dns/src/qtype.rs:10-55`. -/
inductive Qtype where
  | A | NS | MD | MF | CNAME | SOA | MB | MG | MR | NULL | WKS | PTR | HINFO | MINFO | MX | TXT
  | AAAA | SVR | AXFR | MAILB | MAILA | ALL
  deriving DecidableEq, Repr

/-- `*self as u16`, the discriminants of `dns/src/qtype.rs:10-55`. -/
def Qtype.code : Qtype → UInt16
  | .A => 1 | .NS => 2 | .MD => 3 | .MF => 4 | .CNAME => 5 | .SOA => 6 | .MB => 7 | .MG => 8 | .MR => 9
  | .NULL => 10 | .WKS => 11 | .PTR => 12 | .HINFO => 13 | .MINFO => 14 | .MX => 15 | .TXT => 16
  | .AAAA => 28 | .SVR => 33 | .AXFR => 252 | .MAILB => 253 | .MAILA => 254 | .ALL => 255

/-- `Qtype::high_byte`, `dns/src/qtype.rs:58-61`. -/
def Qtype.highByte (q : Qtype) : UInt8 := (q.code >>> 8).toUInt8
/-- `Qtype::low_byte`, `dns/src/qtype.rs:63-65`. -/
def Qtype.lowByte (q : Qtype) : UInt8 := q.code.toUInt8

/-- `TryFrom<u16> for Qtype`, `dns/src/qtype.rs:68-98`. -/
def Qtype.tryFrom (v : UInt16) : Except UInt16 Qtype :=
  if v = 1 then .ok .A else if v = 2 then .ok .NS else if v = 3 then .ok .MD else if v = 4 then .ok .MF
  else if v = 5 then .ok .CNAME else if v = 6 then .ok .SOA else if v = 7 then .ok .MB
  else if v = 8 then .ok .MG else if v = 9 then .ok .MR else if v = 10 then .ok .NULL
  else if v = 11 then .ok .WKS else if v = 12 then .ok .PTR else if v = 13 then .ok .HINFO
  else if v = 14 then .ok .MINFO else if v = 15 then .ok .MX else if v = 16 then .ok .TXT
  else if v = 28 then .ok .AAAA else if v = 33 then .ok .SVR else if v = 252 then .ok .AXFR
  else if v = 253 then .ok .MAILB else if v = 254 then .ok .MAILA else if v = 255 then .ok .ALL
  else .error v

/-- `enum Qclass`, `dns/src/qclass.rs:9-20`. -/
inductive Qclass where
  | IN | CS | CH | HS | ANY
  deriving DecidableEq, Repr

/-- `*self as u16`, `dns/src/qclass.rs:9-20`. -/
def Qclass.code : Qclass → UInt16
  | .IN => 1 | .CS => 2 | .CH => 3 | .HS => 4 | .ANY => 5

/-- `Qclass::high_byte`, `dns/src/qclass.rs:23-25`. -/
def Qclass.highByte (q : Qclass) : UInt8 := (q.code >>> 8).toUInt8
/-- `Qclass::low_byte`, `dns/src/qclass.rs:28-30`. -/
def Qclass.lowByte (q : Qclass) : UInt8 := q.code.toUInt8

/-- `TryFrom<u16> for Qclass`, `dns/src/qclass.rs:33-48` (the mask is `0b0111_1111`). -/
def Qclass.tryFrom (v : UInt16) : Except UInt16 Qclass :=
  let x := v &&& 0x7F
  if x = 1 then .ok .IN else if x = 2 then .ok .CS else if x = 3 then .ok .CH
  else if x = 4 then .ok .HS else if x = 5 then .ok .ANY else .error x

/-- `enum ResponseCode`, `dns/src/header.rs:17-49`. -/
inductive ResponseCode where
  | noError | formatError | serverFailure | nameError | notImplemented | refused
  deriving DecidableEq, Repr

/-- The discriminants, `dns/src/header.rs:17-49`. -/
def ResponseCode.code : ResponseCode → UInt8
  | .noError => 0 | .formatError => 1 | .serverFailure => 2 | .nameError => 3 | .notImplemented => 4 | .refused => 5

/-- `TryFrom<u8> for ResponseCode`, `dns/src/header.rs:51-66`. -/
def ResponseCode.tryFrom (v : UInt8) : Except UInt8 ResponseCode :=
  if v = 0 then .ok .noError else if v = 1 then .ok .formatError else if v = 2 then .ok .serverFailure
  else if v = 3 then .ok .nameError else if v = 4 then .ok .notImplemented else if v = 5 then .ok .refused
  else .error v

/-- `struct Header { buf: [u8; 12] }`, `dns/src/header.rs:74-76`. -/
structure Header where
  b0 : UInt8
  b1 : UInt8
  b2 : UInt8
  b3 : UInt8
  b4 : UInt8
  b5 : UInt8
  b6 : UInt8
  b7 : UInt8
  b8 : UInt8
  b9 : UInt8
  b10 : UInt8
  b11 : UInt8
  deriving DecidableEq

namespace Header
/-- `Header::LEN`, `dns/src/header.rs:79`. -/
def LEN : UInt16 := 12
/-- `Header::set_id`, `dns/src/header.rs:104-107`. -/
def setId (h : Header) (id : UInt16) : Header := { h with b0 := (id >>> 8).toUInt8, b1 := id.toUInt8 }
/-- `Header::set_qr`, `dns/src/header.rs:119-125`; the argument is `qr == Response`. -/
def setQr (h : Header) (response : Bool) : Header :=
  if response then { h with b2 := h.b2 ||| 0x80 } else { h with b2 := h.b2 &&& ~~~0x80 }
/-- `Header::set_rd`, `dns/src/header.rs:128-135`. -/
def setRd (h : Header) (rd : Bool) : Header :=
  if rd then { h with b2 := h.b2 ||| 0x01 } else { h with b2 := h.b2 &&& ~~~0x01 }
/-- `Header::new_query`, `dns/src/header.rs:82-90`. -/
def newQuery (id : UInt16) : Header :=
  (((⟨0, 0, 0, 0, 0, 0, 0, 0, 0, 0, 0, 0⟩ : Header).setId id).setQr false).setRd true
/-- `Header::id`, `dns/src/header.rs:98-100`. -/
def id (h : Header) : UInt16 := be16 h.b0 h.b1
/-- `Header::qr`, `dns/src/header.rs:110-116`; true is `Qr::Response`. -/
def qr (h : Header) : Bool := !(h.b2 &&& 0x80 == 0x00)
/-- `Header::rcode`, `dns/src/header.rs:137-139`. -/
def rcode (h : Header) : Except UInt8 ResponseCode := ResponseCode.tryFrom (h.b3 &&& 0xF)
/-- `Header::qdcount`, `dns/src/header.rs:142-144`. -/
def qdcount (h : Header) : UInt16 := be16 h.b4 h.b5
/-- `Header::set_qdcount`, `dns/src/header.rs:146-148`. -/
def setQdcount (h : Header) (n : UInt16) : Header := { h with b4 := (n >>> 8).toUInt8, b5 := n.toUInt8 }
/-- `Header::increment_qdcount`, `dns/src/header.rs:150-153`. -/
def incrementQdcount (h : Header) : Header :=
  h.setQdcount (if h.qdcount = 65535 then 65535 else h.qdcount + 1)
/-- `Header::ancount`, `dns/src/header.rs:156-158`. -/
def ancount (h : Header) : UInt16 := be16 h.b6 h.b7
/-- `Header::nscount`, `dns/src/header.rs:161-163`. -/
def nscount (h : Header) : UInt16 := be16 h.b8 h.b9
/-- `Header::arcount`, `dns/src/header.rs:166-168`. -/
def arcount (h : Header) : UInt16 := be16 h.b10 h.b11
/-- `Header::as_bytes`, `dns/src/header.rs:171-173`. -/
def asBytes (h : Header) : Bytes := [h.b0, h.b1, h.b2, h.b3, h.b4, h.b5, h.b6, h.b7, h.b8, h.b9, h.b10, h.b11]
/-- `From<[u8; 12]> for Header`, `dns/src/header.rs:176-181`. -/
def ofBytes : Bytes → Header
  | [a, b, c, d, e, f, g, h, i, j, k, l] => ⟨a, b, c, d, e, f, g, h, i, j, k, l⟩
  | _ => ⟨0, 0, 0, 0, 0, 0, 0, 0, 0, 0, 0, 0⟩ -- unreachable: the argument is `[u8; 12]`
end Header

/-- `u16::saturating_add`. -/
def satAdd16 (a b : UInt16) : UInt16 := if a.toNat + b.toNat ≤ 65535 then a + b else 65535


/-- The end of `read_labels`, `dns/src/lib.rs:238-246`; `cap` is `labels.len()`. -/
def labelsDone (cap idx : Nat) (buf : Bytes) (seekTo : UInt16) : RProg (Option Bytes) :=
  (if seekTo ≠ 0 then .doSeek (.start seekTo) else pure ()) >>= fun _ =>
    pure (if idx ≤ cap then fromUtf8 (buf.take idx) else none)

/-- The separating dot, `dns/src/lib.rs:222-227`: the buffer afterwards. -/
def dotBuf (cap idx : Nat) (buf : Bytes) : Bytes := if idx ≠ 0 ∧ idx < cap then buf ++ [46] else buf

/-- The separating dot, `dns/src/lib.rs:222-227`: `labels_idx` afterwards. -/
def dotIdx (idx : Nat) : Nat := if idx ≠ 0 then idx + 1 else idx

/-- A label or the end of the name, `dns/src/lib.rs:214-235`; `k` is the rest of the loop. -/
def labelStep (cap idx : Nat) (buf : Bytes) (seekTo : UInt16) (b0 : UInt8) (k : Nat → Bytes → RProg (Option Bytes)) :
    RProg (Option Bytes) :=
  RProg.doSeek (.current (-1)) >>= fun _ =>
    let len := b0 &&& 0x3F
    if len = 0 then labelsDone cap idx buf seekTo
    else if dotIdx idx + len.toNat ≤ cap then
      RProg.doReadExact len.toNat >>= fun l => k (dotIdx idx + len.toNat) (dotBuf cap idx buf ++ l)
    else
      RProg.doSeek (.current len.toInt8.toInt16) >>= fun _ => k (dotIdx idx + len.toNat) (dotBuf cap idx buf)

/-- The loop of `read_labels`, `dns/src/lib.rs:197-236`, and the code after it.  `seekTo` is `seek_to`,
`idx` is `labels_idx`.  The loop runs at most `fuel` times.  `buf` holds what has been stored at the front
of the caller's buffer of `cap` bytes; a label that does not fit is skipped and from then on nothing more
is stored (nothing later can fit, because `idx` already exceeds `cap`), and the result is `None`. -/
def readLabelsLoop (cap : Nat) : (fuel : Nat) → (idx : Nat) → (buf : Bytes) → (seekTo : UInt16) → RProg (Option Bytes)
  | 0, _, _, _ => .throw .hang
  | fuel + 1, idx, buf, seekTo =>
    RProg.doRead 2 >>= fun x =>
      match x with
      | [] => .throw .unexpectedEof
      | [b0] => labelStep cap idx buf seekTo b0 fun i b => readLabelsLoop cap fuel i b seekTo
      | b0 :: b1 :: _ =>
        if be16 b0 b1 &&& 0xC000 ≠ 0 then
          RProg.doStreamPosition >>= fun pos =>
          RProg.doSeek (.start (be16 b0 b1 &&& ~~~0xC000)) >>= fun _ =>
            readLabelsLoop cap fuel idx buf (if seekTo = 0 then pos else seekTo)
        else labelStep cap idx buf seekTo b0 fun i b => readLabelsLoop cap fuel i b seekTo

/-- `read_labels`, `dns/src/lib.rs:188-247`; `cap` is `labels.len()`. -/
def readLabels (fuel cap : Nat) : RProg (Option Bytes) := readLabelsLoop cap fuel 0 [] 0

/-- `read_u16`, `dns/src/lib.rs:249-256`. -/
def readU16 : RProg UInt16 := do
  let x ← .doReadExact 2
  match x with
  | [a, b] => pure (be16 a b)
  | _ => .throw .panic -- unreachable: `read_exact` filled two bytes

/-- `read_u32`, `dns/src/lib.rs:258-265`. -/
def readU32 : RProg UInt32 := do
  let x ← .doReadExact 4
  match x with
  | [a, b, c, d] => pure (be32 a b c d)
  | _ => .throw .panic -- unreachable

/-- `struct ServiceData`, `dns/src/lib.rs:115-125`. -/
structure ServiceData where
  priority : UInt16
  weight : UInt16
  port : UInt16
  deriving DecidableEq

/-- `enum RData`, `dns/src/lib.rs:128-138`. -/
inductive RData where
  | A (ip : Ipv4)
  | SVR (s : ServiceData)
  | unsupported
  deriving DecidableEq

/-- `struct ResourceRecord`, `dns/src/lib.rs:150-185`. -/
structure ResourceRecord where
  name : Option Bytes
  qtype : Except UInt16 Qtype
  class_ : Except UInt16 Qclass
  ttl : UInt32
  rdata : RData
  deriving DecidableEq

/-- `Response::rr_count`, `dns/src/lib.rs:295-300`. -/
def rrCount (h : Header) : UInt16 := satAdd16 (satAdd16 h.ancount h.nscount) h.arcount

/-- The match on the type in `Response::next_rr`, `dns/src/lib.rs:330-348`. -/
def readRData (qtype : Except UInt16 Qtype) : RProg RData :=
  match qtype with
  | .ok .A => do
    let x ← .doReadExact 4
    match x with
    | [a, b, c, d] => pure (.A ⟨a, b, c, d⟩)
    | _ => .throw .panic -- unreachable
  | .ok .SVR => do
    let priority ← readU16
    let weight ← readU16
    let port ← readU16
    pure (.SVR ⟨priority, weight, port⟩)
  | _ => pure .unsupported

/-- Skipping what is left of the record data, `dns/src/lib.rs:350-353`. -/
def skipRData (before rdlength : UInt16) : RProg Unit :=
  if rdlength ≠ 0 then .doSeek (.start (satAdd16 before rdlength)) else pure ()

/-- The parsing part of `Response::next_rr`, `dns/src/lib.rs:319-361`. -/
def readRr (fuel cap : Nat) : RProg ResourceRecord := do
  let name ← readLabels fuel cap
  let qtype ← readU16
  let class_ ← readU16
  let ttl ← readU32
  let rdlength ← readU16
  let before ← .doStreamPosition
  let rdata ← readRData (Qtype.tryFrom qtype)
  skipRData before rdlength
  pure { name := name, qtype := Qtype.tryFrom qtype, class_ := Qclass.tryFrom class_, ttl := ttl, rdata := rdata }

/-- `struct Response`, `dns/src/lib.rs:272-277`; `cap` is the length of the caller's buffer. -/
structure Response where
  reader : UdpReader
  header : Header
  cap : Nat
  rrIdx : UInt16
  deriving DecidableEq

/-- `Response::response_code`, `dns/src/lib.rs:283-285`. -/
def Response.responseCode (r : Response) : Except UInt8 ResponseCode := r.header.rcode
/-- `Response::answer_count`, `dns/src/lib.rs:289-291`. -/
def Response.answerCount (r : Response) : UInt16 := r.header.ancount

/-- `Response::next_rr`, `dns/src/lib.rs:313-363`.  The response is updated even when an error is
returned. -/
def nextRr (fuel : Nat) (b : Bus σ) : M (σ × Response) (Option ResourceRecord) := fun (s, r) =>
  if r.rrIdx ≥ rrCount r.header then (.ok none, (s, r))
  else
    let out := (readRr fuel r.cap).run (udpReaderOps b) (s, r.reader)
    (out.1.map some, (out.2.1, { r with reader := out.2.2, rrIdx := satAdd16 r.rrIdx 1 }))

/-- `Response::done`, `dns/src/lib.rs:369-371`. -/
def responseDone (b : Bus σ) (r : Response) : M σ Unit := udpReaderDone b r.reader

/-- The loop over the questions in `Client::response`, `dns/src/lib.rs:606-612`. -/
def skipQuestions (fuel : Nat) : Nat → RProg Unit
  | 0 => pure ()
  | n + 1 => do
    let _ ← readLabels fuel 0
    .doSeek (.current 4)
    skipQuestions fuel n

/-- The reading part of `Client::response`, `dns/src/lib.rs:588-612`; `none` is the case where the
datagram is dropped.  With `id = none` it is the one of `mdns::Client::response`,
`dns/src/mdns.rs:149-172`, which does not check the identifier. -/
def responseProg (fuel : Nat) (id : Option UInt16) : RProg (Option Header) := do
  let x ← .doRead 12
  if x.length ≠ 12 then pure none
  else do
    let header := Header.ofBytes x
    if header.qr = false then pure none
    else if id ≠ none ∧ id ≠ some header.id then pure none
    else do
      skipQuestions fuel header.qdcount.toNat
      pure (some header)

/-- `Client::response`, `dns/src/lib.rs:580-622`, and (with `id = none`) `mdns::Client::response`,
`dns/src/mdns.rs:142-182`.  `cap` is `buf.len()`. -/
def response (dbg : Bool) (fuel : Nat) (b : Bus σ) (sn : Sn) (cap : Nat) (id : Option UInt16) : M σ Response := do
  let u ← udpReader dbg b sn
  let (h, u) ← onUdpReader b u (responseProg fuel id)
  match h with
  | none => do
    udpReaderDone b u
    M.throw .wouldBlock
  | some h => pure { reader := u, header := h, cap := cap, rrIdx := 0 }

/-- The loop over the labels in `Query::question`, `dns/src/lib.rs:397-405`. -/
def writeLabels : List Bytes → WProg Unit
  | [] => pure ()
  | l :: ls => do
    .doWriteAll [UInt8.ofNat l.length]
    .doWriteAll l
    writeLabels ls

/-- `Query::question`, `dns/src/lib.rs:390-419`. -/
def question (header : Header) (qtype : Qtype) (qname : Bytes) : WProg Header := do
  let remain ← .doRemain
  if remain < (hostnameLen qname).toUInt16 + 5 then .throw .outOfMemory
  else do
    writeLabels (hostnameLabels qname)
    .doWriteAll [0, qtype.highByte, qtype.lowByte, Qclass.IN.highByte, Qclass.IN.lowByte]
    pure header.incrementQdcount

/-- The part of `Query::send` before the send command, `dns/src/lib.rs:426-429`. -/
def placeHeader (header : Header) : WProg Unit := do
  let restore ← .doStreamPosition
  .doRewind
  .doWriteAll header.asBytes
  .doSeek (.start restore)

/-- `Query::question` for each of a list of questions. -/
def questions (header : Header) : List (Qtype × Bytes) → WProg Header
  | [] => pure header
  | (t, n) :: qs => do
    let h ← question header t n
    questions h qs

/-- What `query`, `question`… and `send` do with the writer, `dns/src/lib.rs:530-537`, `390-433`,
`dns/src/mdns.rs:81-83`. -/
def queryProg (id : UInt16) (qs : List (Qtype × Bytes)) : WProg Header := do
  .doSeek (.start Header.LEN)
  let h ← questions (Header.newQuery id) qs
  if h.qdcount = 0 then pure h
  else do
    placeHeader h
    pure h

/-- `Query::send`, `dns/src/lib.rs:422-433`, after `queryProg`. -/
def sendQuery (b : Bus σ) (r : Ptrs) (h : Header) : M σ UInt16 :=
  if h.qdcount = 0 then pure h.id
  else do
    writerSend b r
    pure h.id

/-- `struct Client`, `dns/src/lib.rs:439-444`. -/
structure Client where
  sn : Sn
  port : UInt16
  server : SockAddr
  rng : Rand

/-- `Client::new`, `dns/src/lib.rs:470-477`. -/
def Client.new (sn : Sn) (port : UInt16) (server : Ipv4) (seed : UInt64) : Client :=
  { sn := sn, port := port, server := ⟨server, 53⟩, rng := ⟨seed⟩ }

/-- `Client::set_server`, `dns/src/lib.rs:497-499`. -/
def Client.setServer (c : Client) (server : Ipv4) : Client := { c with server := { c.server with ip := server } }

/-- `Client::server`, `dns/src/lib.rs:516-518`. -/
def Client.serverIp (c : Client) : Ipv4 := c.server.ip

/-- `Client::query`, `dns/src/lib.rs:524-539`, followed by `question` for each question and `send`.
Returns the identifier and the client with its generator advanced (simplified: after an error the model
does not say how far the generator went). -/
def query (dbg : Bool) (fuel : Nat) (b : Bus σ) (c : Client) (qs : List (Qtype × Bytes)) : M σ (UInt16 × Client) := do
  udpBind dbg fuel b c.sn c.port
  b.setSnDest c.sn c.server
  let r ← socketWriter b c.sn
  let (h, r) ← onWriter b r (queryProg c.rng.nextU16.1 qs)
  let id ← sendQuery b r h
  pure (id, { c with rng := c.rng.nextU16.2 })

/-- `Client::a_question`, `dns/src/lib.rs:554-560`. -/
def aQuestion (dbg : Bool) (fuel : Nat) (b : Bus σ) (c : Client) (hostname : Bytes) : M σ (UInt16 × Client) :=
  query dbg fuel b c [(.A, hostname)]

/-- `mdns::MDNS_SERVER`, `dns/src/mdns.rs:15-17`. -/
def mdnsServer : SockAddr := ⟨⟨224, 0, 0, 251⟩, 5353⟩

/-- `struct mdns::Client`, `dns/src/mdns.rs:23-27`, without the constant `server`. -/
structure MdnsClient where
  sn : Sn
  port : UInt16

/-- `mdns::Client::new`, `dns/src/mdns.rs:49-55`. -/
def MdnsClient.new (sn : Sn) (port : Option UInt16) : MdnsClient := ⟨sn, port.getD 5353⟩

/-- `mdns::Client::query`, `dns/src/mdns.rs:60-88`, followed by `question` for each question and
`send`. -/
def mdnsQuery (fuel : Nat) (b : Bus σ) (c : MdnsClient) (qs : List (Qtype × Bytes)) : M σ Unit := do
  b.setSnDhar c.sn ⟨0x01, 0x00, 0x5E, 0x00, 0x00, 0xFB⟩
  b.setSnTtl c.sn 255
  b.setSnCr c.sn .close
  waitStatus b c.sn .closed fuel
  b.setSnPort c.sn c.port
  b.setSnMr c.sn (SocketMode.default.setProtocol .udp).enableMulti
  b.setSnCr c.sn .«open»
  waitStatus b c.sn .udp fuel
  b.setSnDest c.sn mdnsServer
  let r ← socketWriter b c.sn
  let (h, r) ← onWriter b r (queryProg 0 qs)
  let _ ← sendQuery b r h
  pure ()

/-- `mdns::Client::a_question`, `dns/src/mdns.rs:99-106`. -/
def mdnsAQuestion (fuel : Nat) (b : Bus σ) (c : MdnsClient) (hostname : Bytes) : M σ Unit :=
  mdnsQuery fuel b c [(.A, hostname)]

/-- `mdns::Client::ptr_question`, `dns/src/mdns.rs:119-126`. -/
def mdnsPtrQuestion (fuel : Nat) (b : Bus σ) (c : MdnsClient) (hostname : Bytes) : M σ Unit :=
  mdnsQuery fuel b c [(.PTR, hostname)]

end Verif.Dns
