import Verif.Proof.TlsShaking
import Verif.Spec.MqttTlsPolls
import Verif.Thm.MqttTlsSession
import Verif.Proof.MqttTlsSend
/-!
# One call of `process` of the MQTT client over TLS on the way to the CONNACK
-/
namespace Verif.MqttTls
open Verif Hl
open _root_.Verif.Spec (World worldBus TxState RxState EnvStep)
open Verif.Tls (X Crypto TEvent Fail Rng Shake Shaking Shaken)
open _root_.Verif.Spec.MqttTlsPolls (AsksAgain)

variable {x : Crypto}

/-- The traffic secrets, and the records of both sides after the handshake: CONNECT, and a record with `D`. -/
def clientApp (h : Shake x) : Bytes := Spec.Tls.clientAppTraffic h.psk h.dhe h.messages
def serverApp' (h : Shake x) : Bytes := Spec.Tls.serverAppTraffic h.psk h.dhe h.messages
def connectRecord (h : Shake x) (c0 : Client x) : Bytes :=
  Spec.Tls.protect (clientApp h) 0 23 (Spec.Mqtt.connect 900 (h.n - 22) (c0.clientId.getD []))
def brokerRecord (h : Shake x) (D : Bytes) : Bytes := Spec.Tls.protect (serverApp' h) 0 23 D

/-- The TLS connection is established; `m` records were received. -/
structure Established (h : Shake x) (m : Nat) (sent : List Bytes) (p : Nat) (D : Bytes) (w : World) (c : Tls.Client x) : Prop where
  ready : Tls.Ready w c (serverApp' h) p D
  client : c.ks.clientTraffic = some (clientApp h)
  writeSeq : c.ks.writeSeq = 1
  readSeq : c.ks.readSeq.toNat = m
  sn : c.sn = h.sn
  n : c.rx.n = h.n
  timeout : c.timeout = none
  peace : Peace h.sn.toU8.toNat w
  sent : w.chip.sent.map (·.payload) = sent

/-- The client when `i` records have been handled, the last at the time `t`; the client was `c0`. -/
def Joining (h : Shake x) (c0 : Client x) (i : Nat) (t : UInt32) (F : Nat) (sent : List Bytes) (w : World) (c : Client x) : Prop :=
  if i ≤ 2 then c = { c0 with tls := c.tls } ∧ Shaking h i t F sent w c.tls
  else c = { c0 with tls := c.tls, state := .waitConAck, timeout := some t } ∧
    Established h 0 (sent ++ [h.a.reply h.psk h.dhe h.ch, connectRecord h c0]) (h.p + h.flight.length) [] w c.tls

/-- The CONNACK was received. -/
structure Joined (h : Shake x) (c0 : Client x) (sent : List Bytes) (D rest : Bytes) (w : World) (c : Client x) : Prop where
  same : c = { c0 with tls := c.tls, state := .ready, timeout := none }
  tls : Established h 1 (sent ++ [h.a.reply h.psk h.dhe h.ch, connectRecord h c0]) (h.p + (h.flight ++ brokerRecord h D).length) rest w c.tls

/-- What the call of the TLS client received is still received. -/
theorem process_received (k fuel : Nat) (rng : Rng x) (secs : UInt32) (w : World) (c : Client x) :
    Tls.Onward k (Tls.process false fuel worldBus rng secs (w, c.tls)).2.1 (process false fuel worldBus rng secs (w, c)).2.1 := by
  unfold process
  rcases hr : Tls.process false fuel worldBus rng secs (w, c.tls) with ⟨e | ev, w1, c1⟩
  · rw [X.bind_error (onTls_error hr)]
    exact .refl _ _
  · rw [X.bind_ok (onTls_ok hr)]
    exact grows_onEvent false secs ev (w1, { c with tls := c1 })

theorem connect_world (fuel : Nat) (rng : Rng x) (secs : UInt32) {w w1 : World} {c : Client x} {tls : Tls.Client x}
    (hcall : Tls.process false fuel worldBus rng secs (w, c.tls) = (.ok .handshakeFinished, (w1, tls))) :
    (process false fuel worldBus rng secs (w, c)).2.1 =
      (emit (Mqtt.connectProg c.clientId ({ c with tls := tls } : Client x).rxMax) (w1, { c with tls := tls })).2.1 := by
  have hr0 : process false fuel worldBus rng secs (w, c) =
    (sendConnect worldBus secs >>= fun after => pure (.callAfter after)) (w1, { c with tls := tls }) := process_eq false fuel worldBus rng secs hcall
  have hs : sendConnect worldBus secs (w1, ({ c with tls := tls } : Client x)) = (onTls mapWriterErr (Tls.tlsWriter worldBus) >>= fun r =>
      onTls mapW5500 (sendPacket worldBus r (Mqtt.connectProg c.clientId ({ c with tls := tls } : Client x).rxMax)) >>= fun _ =>
      modC (Client.setStateWithTimeout .waitConAck secs) >>= fun _ => pure Mqtt.timeoutSecs) (w1, { c with tls := tls }) := rfl
  rw [hr0, X.bind_run, hs]
  unfold emit
  rcases h1 : onTls mapWriterErr (Tls.tlsWriter worldBus) (w1, ({ c with tls := tls } : Client x)) with ⟨e | r, s1⟩
  · rw [X.bind_error h1, X.bind_error h1]
  · rw [X.bind_ok h1, X.bind_ok h1]
    rcases h2 : onTls mapW5500 (sendPacket worldBus r (Mqtt.connectProg c.clientId ({ c with tls := tls } : Client x).rxMax)) s1 with ⟨e | r, s2⟩
    · rw [X.bind_error h2]
    · rw [X.bind_ok h2]
      rfl

theorem limit_of {c : Tls.Client x} (h : 22 ≤ c.rx.n ∧ c.rx.n ≤ 32768) : c.recordSizeLimit.toNat = c.rx.n - 22 := Tls.limit_toNat h

/-- One call, by cases. -/
theorem join_cases (hx : x.Standard) (fuel : Nat) (rng : Rng x) (secs : UInt32) (h : Shake x) (c0 : Client x) (ha : Tls.Honest x h.a h.pub h.n)
    (hn : 79 ≤ h.n ∧ h.n ≤ 32768) (hid : ∀ i, c0.clientId = some i → i.length ≤ 23) {i : Nat} (hi : i ≤ 3) {t : UInt32} {F : Nat}
    (hF : 80 + (Spec.Mqtt.connect 900 (h.n - 22) (c0.clientId.getD [])).length ≤ F) {sent : List Bytes} {w : World} {c : Client x}
    (g : Joining h c0 i t F sent w c) (ht : t.toNat ≤ secs.toNat) (sp : UInt8) (props rest : Bytes) (hprops : props.length < 125)
    (hD1 : (Spec.Mqtt.connack sp 0 props ++ rest).length + 39 ≤ h.n) (more : Bytes)
    (hst : ((process false (fuel + 2) worldBus rng secs (w, c)).2.1.chip.received h.sn.toU8.toNat).drop h.p <+:
      h.flight ++ brokerRecord h (Spec.Mqtt.connack sp 0 props ++ rest) ++ more) :
    let r := process false (fuel + 2) worldBus rng secs (w, c)
    let all := h.flight ++ brokerRecord h (Spec.Mqtt.connack sp 0 props ++ rest)
    let sent' := sent ++ [h.a.reply h.psk h.dhe h.ch, connectRecord h c0]
    w.chip.received h.sn.toU8.toNat <+: r.2.1.chip.received h.sn.toU8.toNat ∧
    ((AsksAgain r.1 ∧ Joining h c0 i t F sent r.2.1 r.2.2 ∧ ¬ all <+: (w.chip.received h.sn.toU8.toNat).drop h.p) ∨
    (r.1 = .error (.err (.mqtt (.stateTimeout .waitConAck))) ∧ t.toNat + 10 < secs.toNat ∧ ¬ all <+: (w.chip.received h.sn.toU8.toNat).drop h.p ∧
      (r.2.1.chip.sent.map (·.payload) = sent ∨ r.2.1.chip.sent.map (·.payload) = sent')) ∨
    (i < 3 ∧ AsksAgain r.1 ∧ Joining h c0 (i + 1) secs F sent r.2.1 r.2.2) ∨
    (i = 3 ∧ r.1 = .ok .connAck ∧ Joined h c0 sent (Spec.Mqtt.connack sp 0 props ++ rest) rest r.2.1 r.2.2)) := by
  intro r all sent'
  have hon := process_received h.sn.toU8.toNat (fuel + 2) rng secs w c
  have hst1 := (_root_.Verif.prefix_drop hon.pre h.p).trans hst
  by_cases hi2 : i ≤ 2
  · unfold Joining at g
    rw [if_pos hi2] at g
    obtain ⟨g1, g2⟩ := g
    rw [List.append_assoc] at hst1
    obtain ⟨hpre, hcase⟩ := Tls.shake_cases hx fuel rng secs h ha hn hi2 (by omega) g2 ht _ hst1
    refine ⟨hpre.trans hon.pre, ?_⟩
    have hnf : ∀ {l : Bytes}, ¬ h.flight <+: l → ¬ all <+: l := fun hno ha => hno ((List.prefix_append _ _).trans ha)
    rcases hcase with ⟨res, c', he, hwt, hsh, hno, hsent⟩ | ⟨hi3, hr, hs⟩ | ⟨rfl, hr, hs⟩
    · unfold Tls.WaitsOrGivesUp at hwt
      rw [g2.timeout] at hwt
      dsimp only at hwt
      split at hwt
      · obtain ⟨rfl, rfl⟩ := hwt
        have hp : r = _ := process_after false (fuel + 2) rng secs w c c.tls _ (by rw [he])
        rw [hp, he]
        refine .inl ⟨⟨_, rfl, ?_⟩, ?_, hnf hno⟩
        · rw [UInt32.toNat_ofNat']
          have := Nat.mod_le (10 - (secs.toNat - t.toNat)) (2 ^ 32)
          omega
        · unfold Joining
          rw [if_pos hi2]
          exact ⟨g1, hsh rfl⟩
      · rename_i hlt
        have hp : r = (.error (.err (.mqtt (.stateTimeout .waitConAck))), ((Tls.process false (fuel + 2) worldBus rng secs (w, c.tls)).2.1, { c with tls := c' })) := by
          show process false (fuel + 2) worldBus rng secs (w, c) = _
          rw [hwt.1] at he
          unfold process
          rw [X.bind_error (onTls_error he)]
          rfl
        rw [hp]
        exact .inr (.inl ⟨rfl, by omega, hnf hno, .inl hsent⟩)
    · have hp : r = _ := process_after false (fuel + 2) rng secs w c c.tls 10 hr
      rw [hp]
      refine .inr (.inr (.inl ⟨by omega, ⟨10, rfl, by decide⟩, ?_⟩))
      unfold Joining
      rw [if_pos (by omega)]
      exact ⟨by rw [g1], hs⟩
    · generalize hy : Tls.process false (fuel + 2) worldBus rng secs (w, c.tls) = y at *
      obtain ⟨y1, w1, tls⟩ := y
      dsimp only at hr hs hpre
      subst hr
      have hcan : CanSend w1 { c with tls := tls } (clientApp h) := by
        refine ⟨hs.ready.connected, hs.client, ?_, hs.ready.tx⟩
        show tls.ks.writeSeq.toNat + 1 < _
        rw [hs.writeSeq]
        decide
      have hcid : c.clientId = c0.clientId := by rw [g1]
      have hpk : ({ c with tls := tls } : Client x).connectPacket = Spec.Mqtt.connect 900 (h.n - 22) (c0.clientId.getD []) := by
        unfold Client.connectPacket
        show Spec.Mqtt.connect 900 (tls.rx.n - 22) (c.clientId.getD []) = _
        rw [hs.n, hcid]
      have hw := connect_world (fuel + 2) rng secs hy
      have hto := emit_sends (Mqtt.connectProg c.clientId ({ c with tls := tls } : Client x).rxMax) w1 { c with tls := tls }
      have hti := emit_idle hx (Mqtt.connectProg c.clientId ({ c with tls := tls } : Client x).rxMax) w1 { c with tls := tls } _ hcan
      rw [← hw] at hto hti
      have hroom := hs.room
      rcases C90_connect hx false (fuel + 2) rng secs w w1 c tls hy (clientApp h) hcan (by rw [hs.n]; omega) (by rw [hcid]; exact hid) with
        ⟨e1, e2, e3⟩ | ⟨-, -, hf⟩
      · refine .inr (.inr (.inl ⟨by omega, ⟨10, e1, by decide⟩, ?_⟩))
        unfold Joining
        rw [if_neg (by omega)]
        have hidx : tls.sn.idx = h.sn.toU8.toNat := by rw [hs.sn]
        have hto' : TxOnly h.sn.toU8.toNat w1 r.2.1 := by rw [← hidx]; exact hto
        have hti' : TxState r.2.1.chip tls.sn.toU8.toNat := hti
        have e2' : r.2.2 = { ({ c with tls := tls } : Client x).afterRecord with state := .waitConAck, timeout := some secs } := e2
        have et : r.2.2.tls = { tls with ks := { tls.ks with writeSeq := tls.ks.writeSeq + 1 } } := by rw [e2']; rfl
        obtain ⟨base, hb⟩ := hs.ready.rx.at
        rw [hs.sn] at hb
        refine ⟨by rw [e2', g1]; rfl, ?_⟩
        rw [et]
        refine ⟨⟨hs.ready.connected, hs.ready.traffic, hs.ready.client, hs.ready.seq, hs.ready.holds, ?_, hti'⟩, hs.client, ?_, ?_, hs.sn, hs.n, hs.timeout,
          hto'.peace hs.peace, ?_⟩
        · show RxState r.2.1.chip tls.sn.toU8.toNat _
          rw [hs.sn]
          exact (hto'.rx _ _ hb).state
        · show tls.ks.writeSeq + 1 = 1
          rw [hs.writeSeq]; rfl
        · show tls.ks.readSeq.toNat = 0
          rw [hs.readSeq]; rfl
        · rw [e3.sent, List.map_append, hs.sent, List.append_assoc, hpk]
          show _ ++ ([_] ++ [Spec.Tls.protect (clientApp h) tls.ks.writeSeq.toNat 23 _]) = _
          rw [hs.writeSeq]
          rfl
      · exfalso
        unfold Full at hf
        rw [hpk] at hf
        have hidx : ({ c with tls := tls } : Client x).tls.sn.toU8.toNat = h.sn.toU8.toNat := by show tls.sn.toU8.toNat = _; rw [hs.sn]
        rw [hidx] at hf
        rcases hf with ⟨-, hf⟩ | ⟨-, hf⟩ <;> omega
  · have hi3 : i = 3 := by omega
    subst hi3
    unfold Joining at g
    rw [if_neg (by omega)] at g
    obtain ⟨g1, g2⟩ := g
    have hsn : c.tls.sn.toU8.toNat = h.sn.toU8.toNat := by rw [g2.sn]
    have hcut : ∀ l : Bytes, l <+: all ++ more → l.drop h.flight.length <+: brokerRecord h (Spec.Mqtt.connack sp 0 props ++ rest) ++ more := by
      intro l hl
      have := _root_.Verif.prefix_drop hl h.flight.length
      rw [List.append_assoc, List.drop_left] at this
      exact this
    have hcut' : ∀ l : Bytes, all <+: l → brokerRecord h (Spec.Mqtt.connack sp 0 props ++ rest) <+: l.drop h.flight.length := by
      intro l hl
      have := _root_.Verif.prefix_drop hl h.flight.length
      rw [List.drop_left] at this
      exact this
    have hrec : brokerRecord h (Spec.Mqtt.connack sp 0 props ++ rest) =
        Spec.Tls.protect (serverApp' h) c.tls.ks.readSeq.toNat 23 (Spec.Mqtt.connack sp 0 props ++ rest) := by
      unfold brokerRecord; rw [g2.readSeq]
    have hlim := limit_of (c := c.tls) (by rw [g2.n]; omega)
    rcases Tls.take_cases hx (fuel + 2) rng secs g2.ready g2.timeout (by rw [hsn]; exact g2.peace)
        (some (Spec.Mqtt.connack sp 0 props ++ rest, more)) (by
          rw [hsn, ← List.drop_drop]
          show _ <+: Spec.Tls.protect (serverApp' h) c.tls.ks.readSeq.toNat 23 _ ++ more
          rw [← hrec]
          exact hcut _ hst1) (by
          intro y hy
          cases hy
          rw [hlim, g2.n, List.length_nil]
          dsimp only
          omega) with ⟨hw, hno⟩ | ⟨y, hy, hd⟩
    · have hg : Gives false (fuel + 2) rng secs w c.tls (Tls.process false (fuel + 2) worldBus rng secs (w, c.tls)).2.1 c.tls [] :=
        ⟨.inr (Prod.ext hw.event (Prod.ext rfl hw.same)), g2.ready.holds⟩
      have e : r = _ := incomplete_in false (fuel + 2) rng secs w _ c c.tls [] hg 13 0 [] (by decide) List.nil_prefix (fun e => by simp [Spec.Mqtt.packet] at e)
      obtain ⟨i1, i2⟩ := checkTimeout_idle false secs (Tls.process false (fuel + 2) worldBus rng secs (w, c.tls)).2.1 c
      have hto : c.timeout = some t := by rw [g1]
      have hstate : c.state = .waitConAck := by rw [g1]
      have hw1 : r.2.1 = (Tls.process false (fuel + 2) worldBus rng secs (w, c.tls)).2.1 := by rw [e]; exact i1
      have hrecd := hw.received
      rw [hsn] at hrecd
      have hnall : ¬ all <+: (w.chip.received h.sn.toU8.toNat).drop h.p := by
        intro hall
        refine hno _ rfl ?_
        dsimp only
        rw [← hrec, hsn, ← List.drop_drop]
        exact hcut' _ hall
      refine ⟨by rw [hw1]; exact hrecd, ?_⟩
      obtain ⟨j1, j2⟩ := i2.2.1 t hto ht
      have hp := hw.peace
      rw [hsn] at hp
      by_cases hle : secs.toNat - t.toNat ≤ 10
      · obtain ⟨n, k1, k2, k3⟩ := j1 hle
        refine .inl ⟨⟨n, by rw [e]; exact k2, by omega⟩, ?_, hnall⟩
        unfold Joining
        rw [if_neg (by omega)]
        have hc : r.2.2 = c := by rw [e]; exact k3
        rw [hc, hw1]
        exact ⟨g1, hw.ready, g2.client, g2.writeSeq, g2.readSeq, g2.sn, g2.n, g2.timeout, hp, by rw [hw.sent]; exact g2.sent⟩
      · obtain ⟨k2, -⟩ := j2 (by omega)
        refine .inr (.inl ⟨by rw [e, ← hstate]; exact k2, by omega, hnall, .inr ?_⟩)
        rw [hw1, hw.sent]
        exact g2.sent
    · cases hy
      dsimp only at hd
      obtain ⟨r1, r2⟩ := delivered_ready g2.ready hd (by rw [g2.readSeq]; decide)
      rw [List.nil_append] at r1
      have hrecd := hd.received
      have hpc := hd.peace (by rw [hsn]; exact g2.peace)
      rw [hsn] at hrecd hpc
      have hdsent := hd.sent
      have d4 := hd.keys
      have d5 := hd.same
      have d6 := hd.size
      have hh := hd.holds
      rw [List.nil_append] at hh
      generalize hy : Tls.process false (fuel + 2) worldBus rng secs (w, c.tls) = y at *
      obtain ⟨y1, w1, c1⟩ := y
      have hev : y1 = .ok .applicationData := hd.event
      subst hev
      dsimp only at r1 r2 hrecd hpc hdsent d4 d5 d6 hh
      have hg : Gives false (fuel + 2) rng secs w c.tls w1 c1 (Spec.Mqtt.connack sp 0 props ++ rest) := ⟨.inl hy, hh⟩
      obtain ⟨f1, f2, -⟩ := C91_connack_partial false (fuel + 2) rng secs w w1 c c1 _ hg (by rw [g1]) sp 0 props rest hprops rfl
      obtain ⟨f2, f3⟩ := f2 rfl
      have hw1 : r.2.1 = w1 := f1
      refine ⟨by rw [hw1]; exact hrecd, .inr (.inr (.inr ⟨rfl, f2, ?_, ?_⟩))⟩
      · have e0 : ({ c with state := .ready, timeout := none } : Client x) = { c0 with tls := c.tls, state := .ready, timeout := none } := by rw [g1]
        have e1 : r.2.2 = { c with tls := r.2.2.tls, state := .ready, timeout := none } := f3.same.trans (by
          have h' := congrArg Client.tls f3.same
          change r.2.2.tls = { c1 with rx := r.2.2.tls.rx } at h'
          show ({ c with tls := { c1 with rx := r.2.2.tls.rx }, state := .ready, timeout := none } : Client x) = _
          rw [← h'])
        exact e1.trans (congrArg (fun z : Client x => { z with tls := r.2.2.tls }) e0)
      · have hsame : r.2.2.tls = { c1 with rx := r.2.2.tls.rx } := by
          have h' := f3.same
          exact congrArg Client.tls h'
        have hrd : Tls.Ready w1 r.2.2.tls (serverApp' h) (h.p + h.flight.length + (Spec.Tls.protect (serverApp' h) c.tls.ks.readSeq.toNat 23
            (Spec.Mqtt.connack sp 0 props ++ rest)).length) rest := by
          have hh := f3.holds
          change Tls.Holds r.2.2.tls rest at hh
          generalize r.2.2.tls = q at hsame hh
          rw [hsame] at hh ⊢
          exact ⟨r1.connected, r1.traffic, r1.client, r1.seq, hh, r1.rx, r1.tx⟩
        have hks : r.2.2.tls.ks = c1.ks := by rw [hsame]
        refine ⟨?_, ?_, ?_, ?_, ?_, ?_, ?_, by rw [hw1]; exact hpc, by rw [hw1, hdsent]; exact g2.sent⟩
        · rw [hw1, List.length_append, hrec, ← Nat.add_assoc]
          exact hrd
        · rw [hks, d4]; exact g2.client
        · rw [hks, d4]; exact g2.writeSeq
        · rw [hks, r2, g2.readSeq]
        · rw [hsame]; show c1.sn = _; rw [d5]; exact g2.sn
        · have := f3.size
          exact this.trans (d6.trans g2.n)
        · rw [hsame]; show c1.timeout = _; rw [d5]; exact g2.timeout

end Verif.MqttTls
