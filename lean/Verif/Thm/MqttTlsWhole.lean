import Verif.Thm.MqttTlsPolls
import Verif.Thm.MqttTlsDuplex
/-!
# C119: an MQTT connection over TLS from its first byte on
-/
namespace Verif.MqttTls
open Verif Hl
open _root_.Verif.Spec (World worldBus TxState RxState EnvStep Sent)
open Verif.Tls (X Crypto TEvent Fail Rng)
open _root_.Verif.Spec.Tls (Answer)
open _root_.Verif.Spec.TlsPolls (Poll Clock)
open _root_.Verif.Spec.MqttTlsPolls (poll polls AsksAgain)
open _root_.Verif.Spec.MqttSession (Packet)
open _root_.Verif.Spec.MqttTlsSession (Turn Shows Room)
open _root_.Verif.Spec.MqttTlsDuplex (Act Done acts outgoing records turnsOf seenOf)

variable {x : Crypto}

theorem polls_length (fuel : Nat) (qs : List (Poll x)) (s : World × Client x) : (polls fuel qs s).1.length = qs.length := by
  induction qs generalizing s with
  | nil => rfl
  | cons q qs ih => show ((polls fuel qs _).1.length + 1) = _; rw [ih]; rfl

/-- What the connection is like when the CONNACK has been reported. -/
theorem whole_ready (hx : x.Standard) (fuel : Nat) (rng : Rng x) (hr : rng.Ok) (t0 : UInt32) (w : World)
    (c : Client x) (p : Nat) (hc : Tls.Connecting w c.tls p) (hi : Tls.Connects w c.tls) (a : Answer) (pub : x.Public)
    (ha : Tls.Honest x a pub c.tls.rx.n) (hid : ∀ i, c.clientId = some i → i.length ≤ 23)
    (sp : UInt8) (props rest : Bytes) (hprops : props.length < 125)
    (qs : List (Poll x)) (hq : ∀ q ∈ qs, q.quiet c.tls.sn.toU8.toNat) (hclock : Clock t0 (qs.map (·.secs)))
    (hroom : 314 + c.tls.hostname.length + c.tls.identity.length + c.connectPacket.length ≤ w.chip.txFsr c.tls.sn.toU8.toNat)
    (rs : List Bytes) (hfit : (Spec.Mqtt.connack sp 0 props ++ rest).length + 39 ≤ c.tls.rx.n) :
    let k := c.tls.sn.toU8.toNat
    let ch := (c.tls.offer rng).hello
    let dhe := x.dh rng.secret pub
    let messages := [ch, a.sh, a.ee, a.fin c.tls.psk dhe ch]
    let clientApp := Spec.Tls.clientAppTraffic c.tls.psk dhe messages
    let serverApp := Spec.Tls.serverAppTraffic c.tls.psk dhe messages
    let head := a.flight c.tls.psk dhe ch ++ Spec.Tls.protect serverApp 0 23 (Spec.Mqtt.connack sp 0 props ++ rest)
    let r0 := process false (fuel + 2) worldBus rng t0 (w, c)
    let r1 := polls (fuel + 2) qs r0.2
    (∀ n, n ≤ qs.length → ((polls (fuel + 2) (qs.take n) r0.2).2.1.chip.received k).drop p <+: head ++ Tls.protectAll serverApp 1 rs) →
    (∀ r ∈ r1.1.dropLast, AsksAgain r) → r1.1.getLast? = some (.ok .connAck) →
    ∃ g, (r1.2.1.chip.sent.map (·.payload) = w.chip.sent.map (·.payload) ++ [(c.tls.offer rng).record] ++
        [a.reply c.tls.psk dhe ch, Spec.Tls.protect clientApp 0 23 c.connectPacket]) ∧
      r1.2.2 = { c with tls := g, state := .ready, timeout := none } ∧
      Tls.Ready r1.2.1 g serverApp (p + head.length) rest ∧
      g.ks.clientTraffic = some clientApp ∧ g.timeout = none ∧ g.ks.readSeq = 1 ∧ g.ks.writeSeq = 1 ∧ g.sn = c.tls.sn ∧
      g.rx.n = c.tls.rx.n ∧ Spec.Mqtt.quiet (Spec.Mqtt.interrupts r1.2.1.chip k) = true := by
  intro k ch dhe messages clientApp serverApp head r0 r1 hst1 hask hlast
  obtain ⟨-, -, j, hj, hl, hcases⟩ := C117_connects hx fuel rng hr t0 w c p hc hi a pub ha hid sp props rest hprops hfit qs hq hclock
    (Tls.protectAll serverApp 1 rs) hroom hst1
  have hlen : r1.1.length = qs.length := polls_length _ _ _
  have hne : r1.1 ≠ [] := by intro h; rw [h] at hlast; cases hlast
  have hpos : 0 < r1.1.length := List.length_pos_iff.mpr hne
  rw [List.getLast?_eq_getElem?] at hlast
  have hno : ∀ {r}, AsksAgain r → r ≠ .ok .connAck := by rintro _ ⟨n, rfl, _⟩ h; cases h
  have hcall : ∀ i r, i + 1 < r1.1.length → r1.1[i]? = some r → AsksAgain r := by
    intro i r hi hr
    refine hask r (List.mem_of_getElem? (i := i) ?_)
    rw [List.getElem?_dropLast, if_pos (by omega)]
    exact hr
  have hj' : j + 1 = qs.length ∧ r1.1[j]? = some (.ok .connAck) := by
    rcases hcases with ⟨h1, -, -⟩ | ⟨h1, -⟩ | ⟨q, h1, h2, -⟩
    · exfalso
      refine hno (hl _ (List.mem_of_getElem? (i := r1.1.length - 1) ?_)) rfl
      show (r1.1.take j)[r1.1.length - 1]? = _
      rw [h1, ← hlen, List.take_length]
      exact hlast
    · have h1' : r1.1[j]? = some (.ok .connAck) := h1
      have : j < r1.1.length := (List.getElem?_eq_some_iff.mp h1').1
      by_cases he : j + 1 < r1.1.length
      · exact absurd rfl (hno (hcall j _ he h1'))
      · exact ⟨by omega, h1'⟩
    · exfalso
      have h2' : r1.1[j]? = some (.error (.err (.mqtt (.stateTimeout .waitConAck)))) := h2
      have : j < r1.1.length := (List.getElem?_eq_some_iff.mp h2').1
      by_cases he : j + 1 < r1.1.length
      · obtain ⟨n, h, _⟩ := hcall j _ he h2'
        cases h
      · rw [show r1.1.length - 1 = j by omega, h2'] at hlast
        cases hlast
  obtain ⟨hjl, hjc⟩ := hj'
  rcases hcases with ⟨h1, -, -⟩ | ⟨-, h2⟩ | ⟨q, -, h2, -⟩
  · omega
  · rw [hjl] at h2; dsimp only at h2; rw [List.take_length] at h2
    obtain ⟨q1, q2, q3, q4, q5, q6, q7, q8, q9, q10⟩ := h2
    exact ⟨r1.2.2.tls, q1, q2, q3, q4, q5, q6, q7, q8, q9, q10⟩
  · have h2' : r1.1[j]? = some (.error (.err (.mqtt (.stateTimeout .waitConAck)))) := h2
    rw [h2'] at hjc
    cases hjc

/-- **C119 (part): a whole MQTT connection over TLS.**  An MQTT client whose TCP connection is established is called at `t0`, sends its
ClientHello, and is called again (`qs`) until the last of these calls reports the CONNACK.  Then the application calls `process`, `publish`,
`subscribe` and `unsubscribe` in any order (`as`).  All the time everything received is a beginning of what an honest server sends, `wire`: its
handshake, a record that begins with an accepting CONNACK, and records with the contents `rs`; the data after the CONNACK (`rest`, then `rs`) are a
beginning of the packets `xs`, cut anywhere.  Then

* everything sent since the beginning is, in this order: the ClientHello, the Finished, a record with the CONNECT, and one record for the packet
  of each accepted request, protected with the client's application secret and the sequence numbers 0, 1, 2, …;
* every request is accepted or refused because the transmit buffer is too full;
* the turns show the first `n` packets of the broker, each once, whole and in order, at most one in a turn;
* a packet that is the `j`th and whose last byte is in the first `i` records after the CONNACK's is shown if there are `i + j` turns after these records
  arrived.

What is missing: `Room`, and the packets excluded, as in C111. -/
theorem C119_whole_partial (hx : x.Standard) (fuel : Nat) (rng : Rng x) (hr : rng.Ok) (t0 : UInt32) (w : World)
    (c : Client x) (p : Nat) (hc : Tls.Connecting w c.tls p) (hi : Tls.Connects w c.tls) (a : Answer) (pub : x.Public)
    (ha : Tls.Honest x a pub c.tls.rx.n) (hid : ∀ i, c.clientId = some i → i.length ≤ 23)
    (sp : UInt8) (props rest : Bytes) (hprops : props.length < 125)
    (qs : List (Poll x)) (hq : ∀ q ∈ qs, q.quiet c.tls.sn.toU8.toNat) (hclock : Clock t0 (qs.map (·.secs)))
    (hroom : 314 + c.tls.hostname.length + c.tls.identity.length + c.connectPacket.length ≤ w.chip.txFsr c.tls.sn.toU8.toNat)
    (as : List (Act x)) (haq : ∀ b ∈ as, b.quiet c.tls.sn.toU8.toNat) (rs : List Bytes) (xs : List Packet) (hok : ∀ y ∈ xs, y.ok)
    (hfit : ∀ r ∈ (Spec.Mqtt.connack sp 0 props ++ rest) :: rs, r.length + 39 ≤ c.tls.rx.n) (hbuf : Room c.tls.rx.n rest rs xs)
    (hrs : rs.length + 2 < 2 ^ 64) (has : as.length + 1 < 2 ^ 64) (hxs : rest ++ rs.flatten <+: xs.flatMap Packet.bytes) :
    let k := c.tls.sn.toU8.toNat
    let ch := (c.tls.offer rng).hello
    let dhe := x.dh rng.secret pub
    let messages := [ch, a.sh, a.ee, a.fin c.tls.psk dhe ch]
    let clientApp := Spec.Tls.clientAppTraffic c.tls.psk dhe messages
    let serverApp := Spec.Tls.serverAppTraffic c.tls.psk dhe messages
    let head := a.flight c.tls.psk dhe ch ++ Spec.Tls.protect serverApp 0 23 (Spec.Mqtt.connack sp 0 props ++ rest)
    let wire := head ++ Tls.protectAll serverApp 1 rs
    let r0 := process false (fuel + 2) worldBus rng t0 (w, c)
    let r1 := polls (fuel + 2) qs r0.2
    let r2 := acts fuel as r1.2
    (∀ n, n ≤ qs.length → ((polls (fuel + 2) (qs.take n) r0.2).2.1.chip.received k).drop p <+: wire) →
    (∀ n, ((acts fuel (as.take n) r1.2).2.1.chip.received k).drop p <+: wire) →
    (∀ r ∈ r1.1.dropLast, AsksAgain r) → r1.1.getLast? = some (.ok .connAck) →
    ∃ n, n ≤ xs.length ∧
      r2.2.1.chip.sent.map (·.payload) = w.chip.sent.map (·.payload) ++
        [(c.tls.offer rng).record, a.reply c.tls.psk dhe ch] ++ records clientApp 0 (c.connectPacket :: outgoing as r2.1) ∧
      (∀ d ∈ r2.1, d.answered) ∧ Shows (turnsOf as) (seenOf r2.1) (xs.take n) ∧
      ∀ m i j, i ≤ rs.length → j ≤ xs.length → i + j ≤ (turnsOf (as.drop m)).length →
        head ++ Tls.protectAll serverApp 1 (rs.take i) <+: ((acts fuel (as.take m) r1.2).2.1.chip.received k).drop p →
        (xs.take j).flatMap Packet.bytes <+: rest ++ (rs.take i).flatten → j ≤ n := by
  intro k ch dhe messages clientApp serverApp head wire r0 r1 r2 hst1 hst2 hask hlast
  obtain ⟨g, q1, q2, q3, q4, q5, q6, q7, q8, q9, q10⟩ := whole_ready hx fuel rng hr t0 w c p hc hi a pub ha hid sp props rest hprops qs hq hclock hroom rs
    (hfit _ List.mem_cons_self) hst1 hask hlast
  have hpair : r1.2 = (r1.2.1, { c with tls := g, state := .ready, timeout := none }) := Prod.ext rfl q2
  have hfit' := hc.fits
  have hsize := hc.size
  have hlim : ∀ r ∈ rs, r.length + 17 ≤ g.recordSizeLimit.toNat := by
    intro r hr
    have := hfit r (List.mem_cons_of_mem _ hr)
    rw [limit_of ⟨by omega, by omega⟩]
    omega
  have hd : ∀ {y : Bytes}, y.drop p <+: wire → y.drop (p + head.length) <+: Tls.protectAll serverApp 1 rs := by
    intro y hy
    have := hy.drop head.length
    rw [List.drop_drop, show wire.drop head.length = Tls.protectAll serverApp 1 rs from List.drop_left] at this
    exact this
  obtain ⟨n, taken, D', e1, e2, e3, e4, e5, e6, ⟨ss, e7, e8⟩, e9, e10, e11, e12⟩ :=
    C111_session_partial hx fuel serverApp clientApp as r1.2.1 { c with tls := g, state := .ready, timeout := none } (p + head.length) rest rs xs q3 q4 q5 rfl
      (by rw [q8]; exact q10) (by intro b hb; show b.quiet g.sn.toU8.toNat; rw [q8]; exact haq b hb) hok hlim
      (by show Room g.rx.n _ _ _; rw [q9]; exact hbuf) (by show g.ks.readSeq.toNat + _ + 1 < _; rw [q6]; show 1 + _ + 1 < _; omega)
      (by show g.ks.writeSeq.toNat + _ < _; rw [q7]; show 1 + _ < _; omega) hxs (by
        intro n
        show ((acts fuel (as.take n) (r1.2.1, _)).2.1.chip.received g.sn.toU8.toNat).drop _ <+: Tls.protectAll serverApp g.ks.readSeq.toNat rs
        rw [q8, q6, ← hpair]
        exact hd (hst2 n))
  rw [← hpair] at e3 e6 e7 e8 e12
  refine ⟨n, e1, ?_, e6, e3, ?_⟩
  · have hp : ss.map (·.payload) = records clientApp 1 (outgoing as r2.1) := by
      have := congrArg (List.map Prod.snd) e8
      rw [List.map_map, List.map_map] at this
      simp only [Function.comp_def, List.map_id'] at this
      rw [show g.ks.writeSeq.toNat = 1 from by rw [q7]; rfl] at this
      exact this
    show r2.2.1.chip.sent.map (·.payload) = _
    have q1' : r1.2.1.chip.sent.map (·.payload) = w.chip.sent.map (·.payload) ++ [(c.tls.offer rng).record] ++
        [a.reply c.tls.psk dhe ch, Spec.Tls.protect clientApp 0 23 c.connectPacket] := q1
    rw [e7, List.map_append, q1', hp]
    simp [records]
  · intro m i j h1 h2 h3 h4 h5
    refine e12 m i j h1 h2 h3 ?_ h5
    show Tls.protectAll serverApp g.ks.readSeq.toNat (rs.take i) <+: ((acts fuel (as.take m) r1.2).2.1.chip.received g.sn.toU8.toNat).drop (p + head.length)
    rw [q6, q8]
    have := h4.drop head.length
    rw [List.drop_drop, List.drop_left] at this
    exact this

theorem whole_still (hx : x.Standard) (fuel : Nat) (rng : Rng x) (hr : rng.Ok) (t0 : UInt32) (w : World)
    (c : Client x) (p : Nat) (hc : Tls.Connecting w c.tls p) (hi : Tls.Connects w c.tls) (a : Answer) (pub : x.Public)
    (ha : Tls.Honest x a pub c.tls.rx.n) (hid : ∀ i, c.clientId = some i → i.length ≤ 23)
    (sp : UInt8) (props rest : Bytes) (hprops : props.length < 125)
    (qs : List (Poll x)) (hq : ∀ q ∈ qs, q.quiet c.tls.sn.toU8.toNat) (hclock : Clock t0 (qs.map (·.secs)))
    (hroom : 314 + c.tls.hostname.length + c.tls.identity.length + c.connectPacket.length ≤ w.chip.txFsr c.tls.sn.toU8.toNat)
    (as : List (Act x)) (hsil : ∀ b ∈ as, b.silent c.tls.sn.toU8.toNat) (haq : ∀ b ∈ as, b.quiet c.tls.sn.toU8.toNat) (rs : List Bytes) (xs : List Packet) (hok : ∀ y ∈ xs, y.ok)
    (hfit : ∀ r ∈ (Spec.Mqtt.connack sp 0 props ++ rest) :: rs, r.length + 39 ≤ c.tls.rx.n) (hbuf : Room c.tls.rx.n rest rs xs)
    (hrs : rs.length + 2 < 2 ^ 64) (has : as.length + 1 < 2 ^ 64) (hxs : rest ++ rs.flatten <+: xs.flatMap Packet.bytes) :
    let k := c.tls.sn.toU8.toNat
    let ch := (c.tls.offer rng).hello
    let dhe := x.dh rng.secret pub
    let messages := [ch, a.sh, a.ee, a.fin c.tls.psk dhe ch]
    let serverApp := Spec.Tls.serverAppTraffic c.tls.psk dhe messages
    let head := a.flight c.tls.psk dhe ch ++ Spec.Tls.protect serverApp 0 23 (Spec.Mqtt.connack sp 0 props ++ rest)
    let wire := head ++ Tls.protectAll serverApp 1 rs
    let r0 := process false (fuel + 2) worldBus rng t0 (w, c)
    let r1 := polls (fuel + 2) qs r0.2
    (∀ n, n ≤ qs.length → ((polls (fuel + 2) (qs.take n) r0.2).2.1.chip.received k).drop p <+: wire) →
    (∀ r ∈ r1.1.dropLast, AsksAgain r) → r1.1.getLast? = some (.ok .connAck) → (r1.2.1.chip.received k).drop p = head →
    ∀ n, (acts fuel (as.take n) r1.2).2.1.chip.received k = r1.2.1.chip.received k := by
  intro k ch dhe messages serverApp head wire r0 r1 hst1 hask hlast hhead n
  obtain ⟨g, q1, q2, q3, q4, q5, q6, q7, q8, q9, q10⟩ := whole_ready hx fuel rng hr t0 w c p hc hi a pub ha hid sp props rest hprops qs hq hclock hroom rs
    (hfit _ List.mem_cons_self) hst1 hask hlast
  have hpair : r1.2 = (r1.2.1, { c with tls := g, state := .ready, timeout := none }) := Prod.ext rfl q2
  have hfit' := hc.fits
  have hsize := hc.size
  have hlim : ∀ r ∈ rs, r.length + 17 ≤ g.recordSizeLimit.toNat := by
    intro r hr
    have := hfit r (List.mem_cons_of_mem _ hr)
    rw [limit_of ⟨by omega, by omega⟩]
    omega
  have := acts_silent hx fuel serverApp _ as r1.2.1 { c with tls := g, state := .ready, timeout := none } (p + head.length) rest rs xs
    ⟨q3, q5, rfl, by rw [q8]; exact q10⟩ q4 (by intro b hb; show b.quiet g.sn.toU8.toNat; rw [q8]; exact haq b hb)
    (by intro b hb; show b.silent g.sn.toU8.toNat; rw [q8]; exact hsil b hb) hok hlim
    (by show Room g.rx.n _ _ _; rw [q9]; exact hbuf) (by show g.ks.readSeq.toNat + _ + 1 < _; rw [q6]; show 1 + _ + 1 < _; omega)
    (by show g.ks.writeSeq.toNat + _ < _; rw [q7]; show 1 + _ < _; omega) hxs (by
      show (r1.2.1.chip.received g.sn.toU8.toNat).drop _ <+: _
      rw [q8, ← List.drop_drop, hhead, List.drop_length]
      exact List.nil_prefix) n
  rw [← hpair] at this
  rw [show ({ c with tls := g, state := .ready, timeout := none } : Client x).tls.sn = c.tls.sn from q8] at this
  exact this

namespace Witness
open Tls.Witness

/-- The data behind the CONNACK: a message, and the first byte of the next packet. -/
def wholeRest : Bytes := [0x30, 6, 0, 1, 116, 0, 1, 2, 0xD0]
/-- What is still to come. -/
def wholeRecords : List Bytes := [[0, 0x90], [5, 1, 2, 1, 7, 0x87]]

set_option quotPrecheck false in
/-- The calls until the CONNACK. -/
local notation "R1" => polls (1 + 2) (joinCalls wholeRest) (process false (1 + 2) worldBus rng 0 (Thm.tcpWorld 1 [], joining)).2

/-- Non-vacuity of `C119_whole_partial`: all hypotheses are met by a connection in which the client subscribes, publishes, and sends an
UNSUBSCRIBE without a filter while it takes six turns; the message behind the CONNACK is shown. -/
example : let r0 := process false (1 + 2) worldBus rng 0 (Thm.tcpWorld 1 [], joining)
    let r2 := acts 1 exActs (polls (1 + 2) (joinCalls wholeRest) r0.2).2
    ∃ n, 1 ≤ n ∧ n ≤ 3 ∧ (∀ d ∈ r2.1, d.answered) ∧ Shows (turnsOf exActs) (seenOf r2.1) (exPackets.take n) := by
  dsimp only
  have hbytes : wholeRest ++ wholeRecords.flatten = exPackets.flatMap Packet.bytes := by rw [exPackets_bytes]; decide
  have hok : ∀ y ∈ exPackets, y.ok := by
    intro y hy
    simp only [exPackets, List.mem_cons, List.not_mem_nil, or_false] at hy
    rcases hy with rfl | rfl | rfl
    · exact ⟨by rw [exMessage]; decide, by decide, by decide, by decide⟩
    · exact ⟨by rw [exOther]; decide, by decide, by decide, by decide⟩
    · exact ⟨by rw [exSubAck]; decide, by decide⟩
  have hn : joining.tls.rx.n = 1024 := by decide +kernel
  have hroom : Room joining.tls.rx.n wholeRest wholeRecords exPackets := by rw [hn]; exact room_of_total _ _ _ _ (by decide)
  have hfit : ∀ r ∈ (Spec.Mqtt.connack 0 0 [7] ++ wholeRest) :: wholeRecords, r.length + 39 ≤ joining.tls.rx.n := by
    intro r hr
    rcases List.mem_cons.mp hr with rfl | hr
    · exact join_fits _ (by decide)
    · rw [hn]
      have h : ∀ r ∈ wholeRecords, r.length + 39 ≤ 1024 := by decide
      exact h r hr
  obtain ⟨hj, hall, a1, a2, a3, a4, he, q1, q2, q3, rfl⟩ := joined wholeRest (by decide)
  have hask : ∀ r ∈ R1.1.dropLast, AsksAgain r := by
    intro r hr
    rw [he] at hr
    simp only [List.dropLast, List.mem_cons, List.not_mem_nil, or_false] at hr
    rcases hr with rfl | rfl | rfl <;> assumption
  have hlast : R1.1.getLast? = some (.ok .connAck) := by rw [he]; rfl
  have hkeep := whole_still standard 1 rng rng_ok 0 (Thm.tcpWorld 1 []) joining 0 connecting Tls.Witness.connects answer ()
    honest (by intro i h; cases h; decide) 0 [7] wholeRest (by decide) (joinCalls wholeRest) (joinCalls_quiet _) (by unfold Clock; decide) (by decide +kernel)
    exActs (exActs_silent _) (exActs_quiet _) wholeRecords exPackets hok hfit hroom (by decide) (by decide) (by rw [hbytes])
    (fun n hn => (hj n hn).trans (List.prefix_append _ _)) hask hlast hall
  have hlast4 : (R1.2.1.chip.received joining.tls.sn.toU8.toNat).drop 0 <+: joinStream wholeRest := hall ▸ List.prefix_rfl
  obtain ⟨n, h1, -, h3, h4', h5⟩ := C119_whole_partial standard 1 rng rng_ok 0 (Thm.tcpWorld 1 []) joining 0 connecting Tls.Witness.connects answer ()
    honest (by intro i h; cases h; decide) 0 [7] wholeRest (by decide) (joinCalls wholeRest) (joinCalls_quiet _) (by unfold Clock; decide) (by decide +kernel)
    exActs (exActs_quiet _) wholeRecords exPackets hok hfit hroom (by decide) (by decide) (by rw [hbytes])
    (fun n hn => (hj n hn).trans (List.prefix_append _ _))
    (fun n => by rw [hkeep n]; exact hlast4.trans (List.prefix_append _ _)) hask hlast
  refine ⟨n, ?_, h1, h3, h4'⟩
  refine h5 0 0 1 (by decide) (by decide) (by decide) ?_ ?_
  · rw [hkeep 0]
    have h0 : joinStream wholeRest ++ [] <+: (R1.2.1.chip.received joining.tls.sn.toU8.toNat).drop 0 := by
      rw [List.append_nil, hall]
    exact h0
  · rw [show (exPackets.take 1).flatMap Packet.bytes = (Packet.message [116] [1, 2] [] 0).bytes ++ [] from rfl, exMessage]
    exact ⟨[0xD0], rfl⟩

end Witness

end Verif.MqttTls
