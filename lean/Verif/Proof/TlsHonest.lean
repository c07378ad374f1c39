import Verif.Thm.TlsAlerts
import Verif.Thm.TlsReassembly
/-!
# Records with one whole handshake message
-/
namespace Verif.Tls
open Verif Hl
open _root_.Verif.Spec (World worldBus TxState RxState Queue Chip Mem HsMsg)
open _root_.Verif.Spec.Tls (HelloBody ExtensionsBody serverFinished plaintextHandshake)

variable {x : Crypto}

/-- What the handler of the message `m` gets. -/
structure Whole (m : HsMsg) (hdr : HandshakeHeader) (r : CircleReader) : Prop where
  type : hdr[0] = m.type
  parts : r = CircleReader.new r.a r.b
  whole : r.a ++ r.b = m.body
  length : hdr.length.toNat = m.body.length
  bytes : hdr.toList ++ (r.a ++ r.b) = m.bytes

/-- The message `m` is handled and gives the client `f rx`, where `rx` is the buffer after it. -/
def Handled (secs : UInt32) (c : Client x) (m : HsMsg) (f : Buffer → Client x) : Prop :=
  ∀ (w : World) hdr r rx, Whole m hdr r → (f rx).rx = rx ∧
    onHandshake 65536 secs (c.ks.transcript ++ m.bytes) hdr r (w, { c with rx }) = (.ok (), (w, f rx))

/-- The client whose transcript is `t`. -/
def Client.withTranscript (c : Client x) (t : Bytes) : Client x := { c with ks := { c.ks with transcript := t } }

theorem recvHandshake_one (secs : UInt32) (fuel : Nat) {w : World} {c : Client x} {rx1 : Buffer} (m : HsMsg) (h : Part rx1 m.bytes)
    (hm : m.bytes.length < rx1.buf.length) (hb : rx1.buf.length ≤ 32768) {f : Buffer → Client x} (hf : Handled secs c m f) :
    ∃ rx2, Part rx2 [] ∧ rx2.buf.length = rx1.buf.length ∧
      recvHandshake secs (fuel + 2) (w, { c with rx := rx1 }) = (.ok (), (w, (f rx2).withTranscript (c.ks.transcript ++ m.bytes))) := by
  obtain ⟨hdr, r, rx2, e1, e2, e3, e4, e5, e6, e7, e8⟩ := (h.record m List.prefix_rfl hm hb).2 rfl
  refine ⟨rx2, e4, e5, ?_⟩
  obtain ⟨f1, f2⟩ := hf w hdr r rx2 ⟨e2, e6, e3, e8, e7⟩
  have p1 : popHandshake (w, { c with rx := rx1 }) = (.ok (some (hdr, r)), (w, { c with rx := rx2 })) := by
    unfold popHandshake
    rw [X.bind_ok (getC_run _)]
    dsimp only
    rw [e1]
    rfl
  have p2 : popHandshake (w, (f rx2).withTranscript (c.ks.transcript ++ m.bytes))
      = (.ok none, (w, (f rx2).withTranscript (c.ks.transcript ++ m.bytes))) := by
    unfold popHandshake
    rw [X.bind_ok (getC_run _)]
    have : ((f rx2).withTranscript (c.ks.transcript ++ m.bytes)).rx = rx2 := f1
    dsimp only
    rw [this, e4.empty_pop]
    rfl
  rw [recvHandshake, X.bind_ok p1]
  dsimp only
  rw [X.bind_ok (getC_run _)]
  dsimp only
  rw [List.append_assoc (c.ks.transcript ++ hdr.toList), List.append_assoc c.ks.transcript, e7, X.bind_ok f2, X.bind_run]
  show (recvHandshake secs (fuel + 1)) (w, (f rx2).withTranscript (c.ks.transcript ++ m.bytes)) = _
  rw [recvHandshake, X.bind_ok p2]
  rfl

/-- The buffer after a record with the whole message, before the message is taken. -/
theorem Part.of {b b' : Buffer} {r : Bytes} (h : Part b []) (hq : QRel b' ⟨b.n - 1, [], r⟩) (h1 : b'.head = b.head) (h2 : b'.hsHead = b.hsHead) :
    Part b' r ∧ b'.buf.length = b.buf.length := by
  have e1 := hq.cap
  have e2 := h.q.cap
  dsimp only at e1 e2
  have e3 : b'.buf.length = b.buf.length := by
    have : b.n = b.buf.length := rfl
    omega
  refine ⟨⟨?_, h1.trans h.head, h2.trans h.hs⟩, e3⟩
  rw [e3]
  exact hq

theorem recvRecord_message (dbg : Bool) (fuel : Nat) (secs : UInt32) (header : RecordHeader) (outer : ContentType) {w : World} {c : Client x}
    {rx1 : Buffer} (m : HsMsg) (h : Part rx1 m.bytes) (hm : m.bytes.length < rx1.buf.length) (hb : rx1.buf.length ≤ 32768)
    {f : Buffer → Client x} (hf : Handled secs c m f) :
    ∃ rx2, Part rx2 [] ∧ rx2.buf.length = rx1.buf.length ∧
      recvRecord dbg (fuel + 2) worldBus secs header outer .handshake false (w, { c with rx := rx1 })
        = (countRead outer >>= fun _ => pure none) (w, (f rx2).withTranscript (c.ks.transcript ++ m.bytes)) := by
  obtain ⟨rx2, e1, e2, e3⟩ := recvHandshake_one secs fuel (w := w) m h hm hb hf
  refine ⟨rx2, e1, e2, ?_⟩
  unfold recvRecord
  rw [if_neg (by simp), if_neg (by decide)]
  have e4 : recvContent (fuel + 2) worldBus secs header .handshake (w, { c with rx := rx1 })
      = (.ok none, (w, (f rx2).withTranscript (c.ks.transcript ++ m.bytes))) := by
    unfold recvContent
    dsimp only
    rw [X.bind_ok (orFatal_ok e3)]
    rfl
  rw [X.bind_ok (X.attempt_ok e4)]
  rfl

/-- A client that waits for handshake records, between two of them: the next is at byte `p`. -/
structure Waits (w : World) (c : Client x) (p : Nat) : Prop where
  receives : c.state.receives = true
  size : 22 ≤ c.rx.n ∧ c.rx.n ≤ 32768
  empty : Part c.rx []
  rx : RxState w.chip c.sn.toU8.toNat p
  tx : TxState w.chip c.sn.toU8.toNat

theorem limit_toNat {c : Client x} (h : 22 ≤ c.rx.n ∧ c.rx.n ≤ 32768) : c.recordSizeLimit.toNat = c.rx.n - 22 := by
  unfold Client.recordSizeLimit
  have h0 : (UInt16.ofNat c.rx.n).toNat = c.rx.n := ofNat16_toNat (by omega)
  have h1 : (16 : UInt16).toNat = 16 := rfl
  have h2 : (5 : UInt16).toNat = 5 := rfl
  have h3 : (1 : UInt16).toNat = 1 := rfl
  rw [u16_sub_toNat, u16_sub_toNat, u16_sub_toNat, h0, h1, h2, h3]
  omega

/-- A plaintext record with one message. -/
theorem process_plain_message (dbg : Bool) (fuel : Nat) (rng : Rng x) (secs : UInt32) {w : World} {c : Client x} {p : Nat} (hw : Waits w c p)
    (hi : Quiet w c) (m : HsMsg) (ha : plaintextHandshake m.bytes <+: (w.chip.received c.sn.toU8.toNat).drop p)
    (hl : m.bytes.length ≤ c.rx.n - 22) {f : Buffer → Client x} (hf : Handled secs c m f) :
    (∃ w', dbg = true ∧ process dbg (fuel + 2) worldBus rng secs (w, c) = (.error (.stop .panic), (w', c))) ∨
    ∃ base w1 rx2, Sock w w1 c.sn.idx base (p + (plaintextHandshake m.bytes).length) ∧
      w1.chip.rxRd c.sn.idx = (base + (p + (plaintextHandshake m.bytes).length)) % 65536 ∧ Part rx2 [] ∧ rx2.n = c.rx.n ∧
      process dbg (fuel + 2) worldBus rng secs (w, c)
        = afterRecv dbg worldBus secs (w1, (f rx2).withTranscript (c.ks.transcript ++ m.bytes)) := by
  obtain ⟨base, hat⟩ := hw.rx.at
  have hsz := hw.size
  have hlim := limit_toNat hsz
  have hml : 4 ≤ m.bytes.length := by show 4 ≤ m.body.length + 4; omega
  have hpl : (plaintextHandshake m.bytes).length = 5 + m.bytes.length := by
    show ([22, 3, 3] ++ Spec.Tls.u16 m.bytes.length ++ m.bytes).length = _
    rw [List.length_append]
    rfl
  have hlen := ha.length_le
  rw [List.length_drop, hpl] at hlen
  have hbl : m.bytes.length < 65536 := by omega
  have htake : ((w.chip.received c.sn.idx).drop p).take (5 + m.bytes.length) = ([22, 3, 3] ++ Spec.Tls.u16 m.bytes.length) ++ m.bytes := by
    have := (List.prefix_iff_eq_take.mp ha).symm
    rw [hpl] at this
    exact this
  obtain ⟨w0, hs0, hrd0, hp⟩ := process_recv dbg (fuel + 2) rng secs c hw.receives hat hw.tx hi
    (by show p + 5 ≤ (w.chip.received c.sn.toU8.toNat).length; omega)
  have hq : QRel c.rx ⟨c.rx.n - 1, [], []⟩ := hw.empty.q
  rcases recv_plain dbg (fuel + 2) secs c ([22, 3, 3] ++ Spec.Tls.u16 m.bytes.length) m.bytes .handshake hs0 hrd0 rfl htake rfl (by decide)
    (u16_value m.bytes.length hbl) (by omega) (by omega) hq (by simp only [List.length_nil]; omega) with
    ⟨w', hdbg, e⟩ | ⟨w1, rx1, hs1, hrd1, hq1, hh, e⟩
  · left
    exact ⟨w', hdbg, by rw [hp, X.bind_error e]⟩
  right
  obtain ⟨g1, g2⟩ := hw.empty.of hq1 hh.1 hh.2
  rw [List.nil_append] at g1
  have hn : c.rx.n = c.rx.buf.length := rfl
  obtain ⟨rx2, k1, k2, k3⟩ := recvRecord_message dbg fuel secs (toHeader ([22, 3, 3] ++ Spec.Tls.u16 m.bytes.length)) .handshake (w := w1) m g1
    (by omega) (by omega) hf
  refine ⟨base, w1, rx2, by rw [hpl, ← Nat.add_assoc]; exact hs1, by rw [hpl, ← Nat.add_assoc p]; exact hrd1, k1, k2.trans g2, ?_⟩
  rw [hq.noFragment, k3] at e
  rw [hp, X.bind_ok e]

/-- The client has counted one more record. -/
def Client.counted (c : Client x) : Client x := { c with ks := { c.ks with readSeq := c.ks.readSeq + 1 } }

/-- A protected record with one message. -/
theorem process_sealed_message (hx : x.Standard) (dbg : Bool) (fuel : Nat) (rng : Rng x) (secs : UInt32) {w : World} {c : Client x} {p : Nat}
    (hw : Waits w c p) (hi : Quiet w c) (m : HsMsg) {t : Bytes} (ht : c.ks.serverTraffic = some t) (hseq : c.ks.readSeq.toNat + 1 < 2 ^ 64)
    (ha : Spec.Tls.protect t c.ks.readSeq.toNat 22 m.bytes <+: (w.chip.received c.sn.toU8.toNat).drop p)
    (hl : m.bytes.length + 17 ≤ c.rx.n - 22) {f : Buffer → Client x} (hf : Handled secs c m f) (hk : ∀ rx, (f rx).ks.readSeq = c.ks.readSeq) :
    (∃ w', dbg = true ∧ process dbg (fuel + 2) worldBus rng secs (w, c) = (.error (.stop .panic), (w', c))) ∨
    ∃ base w1 rx2, Sock w w1 c.sn.idx base (p + (Spec.Tls.protect t c.ks.readSeq.toNat 22 m.bytes).length) ∧
      w1.chip.rxRd c.sn.idx = (base + (p + (Spec.Tls.protect t c.ks.readSeq.toNat 22 m.bytes).length)) % 65536 ∧ Part rx2 [] ∧ rx2.n = c.rx.n ∧
      process dbg (fuel + 2) worldBus rng secs (w, c)
        = afterRecv dbg worldBus secs (w1, ((f rx2).withTranscript (c.ks.transcript ++ m.bytes)).counted) := by
  obtain ⟨base, hat⟩ := hw.rx.at
  have hsz := hw.size
  have hlim := limit_toNat hsz
  obtain ⟨header, record, e1, e2, e3, e4⟩ := protect_opens t c.ks.readSeq.toNat 22 m.bytes
  rw [e1] at ha ⊢
  obtain ⟨v1, v2, hh⟩ := e2
  have h5 : header.length = 5 := by rw [hh]; rfl
  have hpl : (header ++ record).length = 5 + record.length := by rw [List.length_append, h5]
  have hlen := ha.length_le
  rw [List.length_drop, hpl] at hlen
  have htake : ((w.chip.received c.sn.idx).drop p).take (5 + record.length) = header ++ record := by
    have := (List.prefix_iff_eq_take.mp ha).symm
    rw [hpl] at this
    exact this
  obtain ⟨w0, hs0, hrd0, hp⟩ := process_recv dbg (fuel + 2) rng secs c hw.receives hat hw.tx hi
    (by show p + 5 ≤ (w.chip.received c.sn.toU8.toNat).length; omega)
  have hq : QRel c.rx ⟨c.rx.n - 1, [], []⟩ := hw.empty.q
  rcases recv_run hx dbg (fuel + 2) secs c header record t hs0 hrd0 h5 htake (by rw [hh]; rfl)
    (by rw [hh]; exact u16_value record.length (by omega)) (by omega) (by omega) hq (by simp only [List.length_nil]; omega) ht hseq with
    ⟨w', hdbg, e⟩ | ⟨w1, rx1, pend, hs1, hrd1, hq1, hhd, -, e⟩
  · left
    exact ⟨w', hdbg, by rw [hp, X.bind_error e]⟩
  right
  obtain ⟨b1, -, -, -, b2⟩ := e _ e4
  rw [List.dropLast_concat] at b1
  subst b1
  have e := b2 .handshake 22 (by simp) rfl (by decide)
  obtain ⟨g1, g2⟩ := hw.empty.of hq1 hhd.1 hhd.2
  have hn : c.rx.n = c.rx.buf.length := rfl
  obtain ⟨rx2, k1, k2, k3⟩ := recvRecord_message dbg fuel secs (toHeader header) .applicationData (w := w1) m g1 (by omega) (by omega) hf
  refine ⟨base, w1, rx2, by rw [hpl, ← Nat.add_assoc]; exact hs1, by rw [hpl, ← Nat.add_assoc p]; exact hrd1, k1, k2.trans g2, ?_⟩
  have e8 : countRead .applicationData (w1, (f rx2).withTranscript (c.ks.transcript ++ m.bytes))
      = (.ok (), (w1, ((f rx2).withTranscript (c.ks.transcript ++ m.bytes)).counted)) := by
    unfold countRead
    rw [if_pos rfl, X.bind_ok (getC_run _)]
    unfold KeySchedule.incrementReadSeq
    have : ((f rx2).withTranscript (c.ks.transcript ++ m.bytes)).ks.readSeq = c.ks.readSeq := hk rx2
    dsimp only
    rw [if_pos (by rw [this]; exact hseq)]
    rfl
  rw [k3, X.bind_ok e8] at e
  rw [hp, X.bind_ok e]

/-! ## The messages of the server -/

/-- The key schedule after the ServerHello. -/
def shakenKeys (k : KeySchedule x) (psk : Bytes) (s : x.Secret) (p : x.Public) (messages : List Bytes) : KeySchedule x :=
  { k with
    serverPublic := some p, transcript := messages.flatten, hkdf := Spec.Tls.handshakeSecret psk (x.dh s p)
    clientTraffic := some (Spec.Tls.clientHandshakeTraffic psk (x.dh s p) messages)
    serverTraffic := some (Spec.Tls.serverHandshakeTraffic psk (x.dh s p) messages)
    secret := Spec.Tls.deriveSecret (Spec.Tls.handshakeSecret psk (x.dh s p)) "derived" [], readSeq := 0, writeSeq := 0 }

theorem handled_serverHello (hx : x.Standard) (secs : UInt32) {c : Client x} {psk body key : Bytes} {s : x.Secret} {p : x.Public}
    (hst : c.state = .waitServerHello) (hs : c.ks.clientSecret = some s)
    (hd : c.ks.secret = Spec.Tls.deriveSecret (Spec.Tls.earlySecret psk) "derived" []) (hb : HelloBody body key) (hp : x.sec1 key = some p)
    (hl : body.length ≤ 32767) :
    Handled secs c ⟨2, body⟩ fun rx => Client.setStateWithTimeout .waitEncryptedExtensions secs
      { c with rx, ks := shakenKeys c.ks psk s p [c.ks.transcript, (HsMsg.mk 2 body).bytes] } := by
  intro w hdr r rx hw
  refine ⟨rfl, ?_⟩
  have ht : hdr.msgType = .ok .serverHello := by
    unfold HandshakeHeader.msgType
    rw [hw.type]
    rfl
  unfold onHandshake
  rw [ht]
  dsimp only
  unfold onServerHello
  rw [X.bind_ok (getC_run _)]
  dsimp only
  rw [if_neg (by rw [hst]; decide)]
  have hbody : r.a ++ r.b = body := hw.whole
  have e1 : recvServerHello 65536 x.sec1 r = .ok p := by
    rw [hw.parts, C58_server_hello_accepted_iff _ _ _ _ (by rw [hbody]; exact hl) _ (by rw [hbody]; omega), hbody]
    obtain ⟨random, len, extensions, rest, h1, h2, h3, h4, h5⟩ := hb
    exact ⟨random, len, extensions, rest, key, h1, h2, h3, h4, h5, hp⟩
  rw [e1]
  have e2 := handshake_run hx { c.ks with serverPublic := some p, transcript := [c.ks.transcript, (HsMsg.mk 2 body).bytes].flatten }
      psk [c.ks.transcript, (HsMsg.mk 2 body).bytes] hd hs rfl rfl
  have e3 : [c.ks.transcript, (HsMsg.mk 2 body).bytes].flatten = c.ks.transcript ++ (HsMsg.mk 2 body).bytes := by simp
  rw [e3] at e2
  show (unwrapKey (KeySchedule.initializeHandshakeSecret _) >>= _ : X _ (World × Client x) Unit) _ = _
  rw [e2]
  unfold shakenKeys
  rw [e3]
  rfl

theorem handled_encryptedExtensions (secs : UInt32) {c : Client x} {body : Bytes} (hst : c.state = .waitEncryptedExtensions)
    (hb : ExtensionsBody body) (hl : body.length ≤ 32767) :
    Handled secs c ⟨8, body⟩ fun rx => Client.setStateWithTimeout .waitFinished secs { c with rx } := by
  intro w hdr r rx hw
  refine ⟨rfl, ?_⟩
  have ht : hdr.msgType = .ok .encryptedExtensions := by
    unfold HandshakeHeader.msgType
    rw [hw.type]
    rfl
  unfold onHandshake
  rw [ht]
  dsimp only
  unfold onEncryptedExtensions
  rw [X.bind_ok (getC_run _)]
  dsimp only
  rw [if_neg (by rw [hst]; decide)]
  have hbody : r.a ++ r.b = body := hw.whole
  have e1 : recvEncryptedExtensions 65536 r = .ok () := by
    rw [hw.parts, (C58_encrypted_extensions_accepted_iff _ _ (by rw [hbody]; exact hl) _ (by rw [hbody]; omega)).1, hbody]
    exact hb
  rw [e1]
  rfl

theorem handled_finished (hx : x.Standard) (secs : UInt32) {c : Client x} {t : Bytes} (messages : List Bytes) (hst : c.state = .waitFinished)
    (hk : c.ks.serverTraffic = some t) (htr : c.ks.transcript = messages.flatten) (hl : (Spec.Tls.verifyData t messages).length = 32) :
    Handled secs c ⟨20, Spec.Tls.verifyData t messages⟩ fun rx => Client.setStateWithTimeout .sendFinished secs { c with rx } := by
  intro w hdr r rx hw
  refine ⟨rfl, ?_⟩
  have ht : hdr.msgType = .ok .finished := by
    unfold HandshakeHeader.msgType
    rw [hw.type]
    rfl
  have hbody : r.a ++ r.b = Spec.Tls.verifyData t messages := hw.whole
  have hr : CRel r (r.a ++ r.b) 0 := by
    rw [hw.parts]
    exact ⟨rfl, rfl, Nat.zero_le _, by show (r.a ++ r.b).length ≤ 32767; rw [hbody, hl]; decide⟩
  have e1 : r.readExact 32 = .ok (Spec.Tls.verifyData t messages, r.adv 32) :=
    hr.readExact_iff.2 ⟨hl, by rw [List.drop_zero, hbody], rfl⟩
  have e2 : c.ks.verifyServerFinished (Spec.Tls.verifyData t messages) = .ok () := by
    unfold KeySchedule.verifyServerFinished
    rw [hk]
    dsimp only
    rw [finished_eq hx c.ks _ _ htr, if_pos rfl]
  unfold onHandshake
  rw [ht]
  dsimp only
  unfold onFinished
  rw [X.bind_ok (getC_run _)]
  dsimp only
  have hlen : hdr.length = 32 := by
    apply UInt32.toNat_inj.mp
    rw [hw.length]
    exact hl
  rw [if_neg (by rw [hst]; decide), if_neg (by rw [hlen]; decide), e1]
  show (X.ofExcept (c.ks.verifyServerFinished (Spec.Tls.verifyData t messages)) >>= _ : X _ (World × Client x) Unit) _ = _
  rw [e2]
  rfl

end Verif.Tls
