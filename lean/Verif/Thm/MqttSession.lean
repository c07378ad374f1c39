import Verif.Thm.MqttIn
/-!
# C103: the packets that arrive on a connection
-/
namespace Verif.Thm
open Verif Hl Spec Verif.Mqtt
open Verif.Spec.MqttSession (PubOp readResult useReader Packet Seen Turn turn turns Shows)

/-- Whatever the program does, it does not disturb a reader. -/
theorem readResult_keeps {w : World} {rd : PublishReader} {cur : Cursor} {base p : Nat} (prog : RProg Bytes)
    (h : RdRel (w, rd.reader) cur base p p) :
    ∃ cur' w', (readResult rd (onPublish worldBus rd prog w)).2.2 = w' ∧
      (readResult rd (onPublish worldBus rd prog w)).2.1.reader.sn = rd.reader.sn ∧
      RdRel (w', (readResult rd (onPublish worldBus rd prog w)).2.1.reader) cur' base p p ∧ Later w w' := by
  obtain ⟨w', r', k1, k2, k3, k4⟩ := onTcpReader_run prog h
  rcases hx : prog.run cursorOps cur with ⟨e | a, cur'⟩
  · rw [hx] at k4
    have hm : mapW5500 (onTcpReader worldBus rd.reader prog) w = (mapErr e, w') := by
      unfold mapW5500 mapErr; rw [k4]; cases e <;> rfl
    have hw : (readResult rd (onPublish worldBus rd prog w)).2 = (rd, w') := by
      unfold onPublish; rw [hm]; cases e <;> rfl
    rw [hw]
    exact ⟨cur, w', rfl, rfl, h.later k1, k1⟩
  · rw [hx] at k3 k4
    have hm : mapW5500 (onTcpReader worldBus rd.reader prog) w = (.ok (.ok (a, r')), w') := by
      unfold mapW5500; rw [k4]; rfl
    have hw : (readResult rd (onPublish worldBus rd prog w)).2 = ({ rd with reader := r' }, w') := by
      unfold onPublish; rw [hm]; rfl
    rw [hw]
    exact ⟨cur', w', rfl, k2, k3, k1⟩

theorem useReader_keeps {base p : Nat} (ops : List PubOp) : ∀ {w : World} {rd : PublishReader} {cur : Cursor},
    RdRel (w, rd.reader) cur base p p →
    ∃ cur', (useReader ops rd w).2.1.reader.sn = rd.reader.sn ∧
      RdRel ((useReader ops rd w).2.2, (useReader ops rd w).2.1.reader) cur' base p p ∧ Later w (useReader ops rd w).2.2 := by
  induction ops with
  | nil => intro w rd cur h; exact ⟨cur, rfl, h, .refl w⟩
  | cons op ops ih =>
    intro w rd cur h
    have hop : ∃ cur', (op.run rd w).2.1.reader.sn = rd.reader.sn ∧ RdRel ((op.run rd w).2.2, (op.run rd w).2.1.reader) cur' base p p ∧
        Later w (op.run rd w).2.2 := by
      cases op with
      | wait => exact ⟨cur, rfl, h.tick, ⟨1, rfl⟩⟩
      | topic n => obtain ⟨cur', w', a, b, c, d⟩ := readResult_keeps (readTopicProg rd.info n) h; subst a; exact ⟨cur', b, c, d⟩
      | payload n => obtain ⟨cur', w', a, b, c, d⟩ := readResult_keeps (readPayloadProg rd.info n) h; subst a; exact ⟨cur', b, c, d⟩
    obtain ⟨c1, a1, a2, a3⟩ := hop
    obtain ⟨c2, b1, b2, b3⟩ := ih a2
    exact ⟨c2, b1.trans a1, b2, a3.trans b3⟩

theorem publishDone_received {w : World} {rd : PublishReader} {cur : Cursor} {base p : Nat} (h : RdRel (w, rd.reader) cur base p p) :
    w.chip.received rd.reader.sn.idx <+: (publishDone false worldBus rd w).2.chip.received rd.reader.sn.idx := by
  obtain ⟨w', r', k1, k2, k3, k4⟩ := onTcpReader_run (publishDoneProg false rd.info) h
  rcases hx : (publishDoneProg false rd.info).run cursorOps cur with ⟨e | a, cur'⟩
  · rw [hx] at k4
    have hm : mapW5500 (onTcpReader worldBus rd.reader (publishDoneProg false rd.info)) w = (mapErr e, w') := by
      unfold mapW5500 mapErr; rw [k4]; cases e <;> rfl
    have hw : (publishDone false worldBus rd w).2 = w' := by
      unfold publishDone
      rw [M.bind_run]
      unfold onPublish
      rw [hm]
      cases e <;> rfl
    rw [hw]
    exact (k1.calm _).recvd
  · rw [hx] at k3 k4
    obtain ⟨w2, e1, e2, e3, e4⟩ := tcpReaderDone_run k3
    have hm : onPublish worldBus rd (publishDoneProg false rd.info) w = (.ok (.ok (a, { rd with reader := r' })), w') := by
      unfold onPublish mapW5500; rw [k4]; rfl
    have hw : (publishDone false worldBus rd w).2 = w2 := by
      unfold publishDone
      rw [M.bind_ok hm]
      dsimp only
      rw [M.bind_ok e1]
      rfl
    rw [hw]
    rw [k2] at e4
    exact (k1.calm _).recvd.trans e4

/-- The connection between two turns: the client is ready, `p` bytes were consumed, and no interrupt is pending. -/
structure Live (c : Client) (base p : Nat) (w : World) : Prop where
  ready : c.state = .ready
  none : c.timeout = .none
  rx : RxAt w.chip c.sn.idx base p
  calm : Spec.Mqtt.quiet (w.chip.mem (4 * c.sn.idx + 1) 2) = true

theorem finish_not_publish {w : World} {r : Ptrs} {cur : Cursor} {base p : Nat} (secs : UInt32) (c : Client)
    (h : RdRel (w, r) cur base p p) (hs : r.sn = c.sn) (out : RecvOut) (ho : ∀ i, out ≠ .publish i) (rd : PublishReader) :
    ((recvFinish worldBus r out >>= after false secs) (w, c)).1 ≠ .ok (.ok (.publish rd)) := by
  have hct : ∀ w : World, (checkTimeout false secs (w, c)).1 ≠ .ok (.ok (.publish rd)) := by
    intro w hx
    rcases (checkTimeout_idle false secs w c).2.2.2 _ hx with h | ⟨n, h⟩ <;> cases h
  obtain ⟨w', e1, -, -, e4⟩ := finish_done c h hs
  cases out with
  | pending => exact hct w
  | bad e reset => cases reset <;> exact fun h => by cases h
  | connAck code =>
    unfold recvFinish
    dsimp only
    rw [bind_assoc, M.bind_ok e1]
    cases hx : ConnectReasonCode.tryFrom code with
    | ok a => exact fun h => by cases h
    | error e =>
      dsimp only
      split <;> exact fun h => by cases h
  | subAck id code =>
    unfold recvFinish
    dsimp only
    rw [bind_assoc, M.bind_ok e1]; exact fun h => by cases h
  | unSubAck id code =>
    unfold recvFinish
    dsimp only
    rw [bind_assoc, M.bind_ok e1]; exact fun h => by cases h
  | publish info => exact absurd rfl (ho info)
  | ignored =>
    unfold recvFinish
    dsimp only
    rw [bind_assoc, M.bind_ok e1]
    exact hct w'

theorem timeout_none (dbg : Bool) (secs : UInt32) (w : World) (c : Client) (h : c.timeout = none) :
    checkTimeout dbg secs (w, c) = (.ok (.ok .none), (w, c)) := by
  obtain ⟨i1, i2, -⟩ := checkTimeout_idle dbg secs w c
  obtain ⟨j1, j2⟩ := i2 h
  exact Prod.ext j1 (Prod.ext i1 j2)

/-- What a turn needs to know of `process`: it ended in `w2`, after the call had seen `D`. -/
theorem turn_received (fuel : Nat) (t : Turn) (w : World) (c : Client) (w1 : World) (base p : Nat)
    (h : (∃ e w2, w1.chip.received c.sn.idx <+: w2.chip.received c.sn.idx ∧
        process false fuel worldBus t.secs (w.pause t.before t.during, c) = (mapErr e, (w2, c))) ∨
      ∃ out cur r w2, RdRel (w2, r) cur base p p ∧ r.sn = c.sn ∧ w1.chip.received c.sn.idx <+: w2.chip.received c.sn.idx ∧
        process false fuel worldBus t.secs (w.pause t.before t.during, c) = (recvFinish worldBus r out >>= after false t.secs) (w2, c)) :
    w1.chip.received c.sn.idx <+: (turn fuel t (w, c)).2.1.chip.received c.sn.idx := by
  rcases h with ⟨e, w2, h1, h2⟩ | ⟨out, cur, r, w2, h1, h2, h3, h4⟩
  · unfold turn
    rw [h2]
    cases e <;> exact h1
  · refine h3.trans ?_
    have hf := finish_received false t.secs c h1 h2 out
    rw [← h4] at hf
    by_cases hpub : ∃ info, out = .publish info
    · obtain ⟨info, rfl⟩ := hpub
      have hp : process false fuel worldBus t.secs (w.pause t.before t.during, c) = (.ok (.ok (.publish ⟨r, info⟩)), (w2, c)) := h4
      obtain ⟨cur', a1, a2, a3⟩ := useReader_keeps t.ops (rd := ⟨r, info⟩) h1
      have hd := publishDone_received a2
      rw [a1] at hd
      change _ <+: _ at hd
      dsimp only at hd
      rw [h2] at hd
      have hx := (a3.calm c.sn.idx).recvd.trans hd
      unfold turn
      rw [hp]
      dsimp only
      rcases hr : publishDone false worldBus (useReader t.ops ⟨r, info⟩ w2).2.1 (useReader t.ops ⟨r, info⟩ w2).2.2 with ⟨x, w'⟩
      rw [hr] at hx
      rcases x with e | (e | u) <;> exact hx
    · unfold turn
      rcases hr : process false fuel worldBus t.secs (w.pause t.before t.during, c) with ⟨x, s'⟩
      rw [hr] at hf
      dsimp only [Prod.fst] at hf ⊢
      rcases x with e | (e | ev)
      · exact hf
      · exact hf
      · cases ev with
        | publish rd =>
          exfalso
          refine finish_not_publish t.secs c h1 h2 _ (fun i h => hpub ⟨i, h⟩) rd ?_
          rw [← h4, hr]
        | _ => exact hf

/-- The type, the flags and the body of a packet. -/
def parts : Packet → Nat × Nat × Bytes
  | .message topic payload properties flags => (3, flags, Spec.Mqtt.str topic ++ (Spec.Mqtt.vbi properties.length ++ properties) ++ payload)
  | .subAck id reason properties => (9, 0, Spec.Mqtt.u16 id.toNat ++ (Spec.Mqtt.vbi properties.length ++ properties) ++ [reason.code])
  | .unSubAck id reason properties => (11, 0, Spec.Mqtt.u16 id.toNat ++ (Spec.Mqtt.vbi properties.length ++ properties) ++ [reason.code])
  | .other type flags body => (type, flags, body)

theorem parts_bytes (x : Packet) : x.bytes = Spec.Mqtt.packet (parts x).1 (parts x).2.1 (parts x).2.2 := by cases x <;> rfl

theorem pause_live {c : Client} {base p : Nat} {w : World} {t : Turn} (h : Live c base p w) (hq : t.quiet c.sn.idx) :
    Peace c.sn.idx (w.pause t.before t.during) ∧ RxAt (w.pause t.before t.during).chip c.sn.idx base p ∧
      TxSame c.sn.idx w (w.pause t.before t.during) ∧
      w.chip.received c.sn.idx <+: (w.pause t.before t.during).chip.received c.sn.idx := by
  have hp : Peace c.sn.idx ({ w with sched := t.before :: t.during } : World) := ⟨h.calm, hq⟩
  have hc := calm_tick c.sn.idx ({ w with sched := t.before :: t.during } : World)
  exact ⟨hp.tick, hc.rx _ _ h.rx, ⟨hc.tx, hc.free, hc.sent, hc.rxs, hc.txs, hc.dip, hc.dport⟩, hc.recvd⟩

/-- A turn whose reader saw a complete packet. -/
theorem turn_packet (fuel : Nat) (t : Turn) (w : World) (c : Client) (base p : Nat) (h : Live c base p w) (hq : t.quiet c.sn.idx)
    (x : Packet) (hx : x.ok)
    (hs : SeenPacket false fuel t.secs (w.pause t.before t.during) c base p (parts x).1 (parts x).2.1 (parts x).2.2) :
    let r := turn fuel t (w, c)
    r.1 = x.seen t.ops ∧ r.2.2 = c ∧ TxSame c.sn.idx w r.2.1 ∧ w.chip.received c.sn.idx <+: r.2.1.chip.received c.sn.idx ∧
      Live c base (p + x.bytes.length) r.2.1 := by
  obtain ⟨q1, q2, q3, q4⟩ := pause_live h hq
  cases x with
  | message topic payload properties flags =>
    obtain ⟨rd, w2, g1, g2, g3, g4, g5⟩ := publish_seen topic payload properties flags hx.2.2.1 hx.2.1 hs
    obtain ⟨u1, u2, w', u3, u4, u5, u6⟩ := g5 t.ops
    have hr : turn fuel t (w, c) = (.message (useReader t.ops rd w2).1, w', c) := by
      unfold turn
      rw [g1]
      dsimp only
      rw [u3]
    intro r
    rw [show r = _ from hr]
    exact ⟨by rw [u1]; rfl, rfl, q3.trans u5.toTxSame, q4.trans u6, ⟨h.ready, h.none, u4, (u5.peace q1).now⟩⟩
  | subAck id reason properties =>
    obtain ⟨w', g1, g2, g3, g4⟩ := suback_seen id reason properties hx.2 hs
    have hr : turn fuel t (w, c) = (.subAck id reason, w', c) := by
      unfold turn
      rw [g1]
    intro r
    rw [show r = _ from hr]
    exact ⟨rfl, rfl, q3.trans g3.toTxSame, q4.trans g4, ⟨h.ready, h.none, g2, (g3.peace q1).now⟩⟩
  | unSubAck id reason properties =>
    obtain ⟨w', g1, g2, g3, g4⟩ := unsuback_seen id reason properties hx.2 hs
    have hr : turn fuel t (w, c) = (.unSubAck id reason, w', c) := by
      unfold turn
      rw [g1]
    intro r
    rw [show r = _ from hr]
    exact ⟨rfl, rfl, q3.trans g3.toTxSame, q4.trans g4, ⟨h.ready, h.none, g2, (g3.peace q1).now⟩⟩
  | other type flags body =>
    obtain ⟨w', g1, g2, g3, g4⟩ := ignored_seen type flags body hx.2.1 hx.2.2.1 hx.2.2.2 hs
    have hr : turn fuel t (w, c) = (.nothing, w', c) := by
      unfold turn
      rw [g1, timeout_none false t.secs w' c h.none]
    intro r
    rw [show r = _ from hr]
    exact ⟨rfl, rfl, q3.trans g3.toTxSame, q4.trans g4, ⟨h.ready, h.none, g2, (g3.peace q1).now⟩⟩

/-- A turn: it shows nothing, or the next packet. -/
theorem turn_step (fuel : Nat) (t : Turn) (w : World) (c : Client) (base p : Nat) (h : Live c base p w) (hq : t.quiet c.sn.idx)
    (xs : List Packet) (hok : ∀ x ∈ xs, x.ok)
    (hs : ((turn fuel t (w, c)).2.1.chip.received c.sn.idx).drop p <+: xs.flatMap Packet.bytes) :
    let r := turn fuel t (w, c)
    r.2.2 = c ∧ TxSame c.sn.idx w r.2.1 ∧ w.chip.received c.sn.idx <+: r.2.1.chip.received c.sn.idx ∧
    ((r.1 = .nothing ∧ Live c base p r.2.1 ∧ ∀ x xs', xs = x :: xs' → ¬ x.bytes <+: (w.chip.received c.sn.idx).drop p) ∨
      ∃ x xs', xs = x :: xs' ∧ r.1 = x.seen t.ops ∧ Live c base (p + x.bytes.length) r.2.1) := by
  obtain ⟨q1, q2, q3, q4⟩ := pause_live h hq
  have hne : c.state ≠ .init := by rw [h.ready]; decide
  obtain ⟨w0, h0, hr⟩ := quiet_run false fuel t.secs _ c hne q1.tick.now
  have idle : ∀ w2, Calm c.sn.idx (w.pause t.before t.during) w2 →
      process false fuel worldBus t.secs (w.pause t.before t.during, c) = checkTimeout false t.secs (w2, c) →
      turn fuel t (w, c) = (.nothing, w2, c) ∧ TxSame c.sn.idx w w2 ∧ w.chip.received c.sn.idx <+: w2.chip.received c.sn.idx ∧
        Live c base p w2 := by
    intro w2 hc hp
    refine ⟨?_, q3.trans hc.toTxSame, q4.trans hc.recvd, ⟨h.ready, h.none, hc.rx _ _ q2, (hc.peace q1).now⟩⟩
    unfold turn
    rw [hp, timeout_none false t.secs w2 c h.none]
  rcases receive_run false t.secs w0 c base p (h0.rx _ _ q2) with ⟨w1, -, -, h3⟩ | ⟨w1, h1, h2, h3⟩ | ⟨D, w1, w2, h1, h2, h3, h4, h5, h6, h7, h8⟩
  · cases h3
  · obtain ⟨i1, i2, i3, i4⟩ := idle w1 (h0.trans (h2.calm _)) (hr.trans h1)
    intro r
    rw [show r = _ from i1]
    refine ⟨rfl, i2, i3, .inl ⟨rfl, i4, fun x xs' hx hp => ?_⟩⟩
    have := (hp.trans (prefix_drop i3 p)).length_le
    rw [parts_bytes] at this
    simp [Spec.Mqtt.packet] at this
    omega
  · rw [← hr] at h7 h8
    have hw2 := (h2.calm c.sn.idx).recvd
    have hrcv : w1.chip.received c.sn.idx <+: (turn fuel t (w, c)).2.1.chip.received c.sn.idx := by
      apply turn_received fuel t w c w1 base p
      rcases hx : (recvProg false c.state).run cursorOps ⟨D, 0⟩ with ⟨e | out, cur⟩
      · exact .inl ⟨e, w2, hw2, h8 e cur hx⟩
      · obtain ⟨r', g1, g2, g3⟩ := h7 out cur hx
        exact .inr ⟨out, cur, r', w2, g2, g1, hw2, g3⟩
    have hD := (h6.trans (prefix_drop hrcv p)).trans hs
    have hcalm := h0.trans ((h1.trans h2).calm c.sn.idx)
    cases xs with
    | nil => exact absurd (List.prefix_nil.mp hD) h3
    | cons x xs =>
      have hx : x.ok := hok x (List.mem_cons_self ..)
      rw [List.flatMap_cons] at hD
      rcases List.prefix_or_prefix_of_prefix (List.prefix_append x.bytes (xs.flatMap Packet.bytes)) hD with hpre | hpre
      · -- complete
        rw [parts_bytes] at hpre
        obtain ⟨a1, a2, a3, a4, a5⟩ := turn_packet fuel t w c base p h hq x hx (seen_packet hcalm h4 hpre h7 h8)
        exact ⟨a2, a3, a4, .inr ⟨x, xs, rfl, a1, a5⟩⟩
      · by_cases heq : D = x.bytes
        · have hpre' : x.bytes <+: D := by rw [heq]; exact List.prefix_refl _
          rw [parts_bytes] at hpre'
          obtain ⟨a1, a2, a3, a4, a5⟩ := turn_packet fuel t w c base p h hq x hx (seen_packet hcalm h4 hpre' h7 h8)
          exact ⟨a2, a3, a4, .inr ⟨x, xs, rfl, a1, a5⟩⟩
        · have hb : (parts x).2.2.length ≤ 65535 := by
            have := hx.1
            rw [parts_bytes] at this
            simp [Spec.Mqtt.packet] at this
            omega
          have hlt := strict_prefix_length hpre heq
          rw [parts_bytes] at hpre heq
          obtain ⟨cur, hrun⟩ := recv_incomplete false c.state _ _ (parts x).2.2 D (vbi_isVbi _)
            (by have := vbi_length_le (parts x).2.2.length (by omega); omega) hb h4 hpre heq
          obtain ⟨r', g1, g2, g3⟩ := h7 _ _ hrun
          obtain ⟨i1, i2, i3, i4⟩ := idle w2 hcalm g3
          intro r
          rw [show r = _ from i1]
          refine ⟨rfl, i2, i3, .inl ⟨rfl, i4, fun y ys hy hp => ?_⟩⟩
          cases hy
          have := (hp.trans ((prefix_drop (q4.trans h0.recvd) p).trans h5)).length_le
          omega

theorem prefix_rest {a b l : Bytes} {p : Nat} (h : a ++ b <+: l.drop p) : b <+: l.drop (p + a.length) := by
  have := _root_.Verif.prefix_drop h a.length
  rw [List.drop_left, List.drop_drop] at this
  exact this

theorem prefix_shorten {a b l : Bytes} {p : Nat} (h : l.drop p <+: a ++ b) : l.drop (p + a.length) <+: b := by
  have := _root_.Verif.prefix_drop h a.length
  rw [List.drop_left, List.drop_drop] at this
  exact this

theorem session (fuel : Nat) (c : Client) (base : Nat) : ∀ (ts : List Turn) (w : World) (p : Nat) (xs : List Packet),
    Live c base p w → (∀ t ∈ ts, t.quiet c.sn.idx) → (∀ x ∈ xs, x.ok) →
    (∀ n, ((turns fuel (ts.take n) (w, c)).2.1.chip.received c.sn.idx).drop p <+: xs.flatMap Packet.bytes) →
    ∃ n, n ≤ xs.length ∧ Shows ts (turns fuel ts (w, c)).1 (xs.take n) ∧ (turns fuel ts (w, c)).2.2 = c ∧
      (turns fuel ts (w, c)).2.1.chip.sent = w.chip.sent ∧
      Live c base (p + ((xs.take n).flatMap Packet.bytes).length) (turns fuel ts (w, c)).2.1 ∧
      ∀ m j, j ≤ xs.length → m + j ≤ ts.length →
        (xs.take j).flatMap Packet.bytes <+: ((turns fuel (ts.take m) (w, c)).2.1.chip.received c.sn.idx).drop p → j ≤ n := by
  intro ts
  induction ts with
  | nil =>
    intro w p xs h _ _ _
    refine ⟨0, Nat.zero_le _, .nil, rfl, rfl, h, fun m j _ hm _ => ?_⟩
    simp at hm; omega
  | cons t ts ih =>
    intro w p xs h hq hok hs
    have h1 := hs 1
    change ((turn fuel t (w, c)).2.1.chip.received c.sn.idx).drop p <+: _ at h1
    obtain ⟨a1, a2, a3, a4⟩ := turn_step fuel t w c base p h (hq t (List.mem_cons_self ..)) xs hok h1
    rcases hr : turn fuel t (w, c) with ⟨sn, w1, c1⟩
    have hT : ∀ us, turns fuel (t :: us) (w, c) = (sn :: (turns fuel us (w1, c1)).1, (turns fuel us (w1, c1)).2) := by
      intro us; rw [turns, hr]
    rw [hr] at a1 a2 a3 a4
    dsimp only at a1 a2 a3 a4
    subst a1
    have hs' : ∀ n, ((turns fuel (ts.take n) (w1, c1)).2.1.chip.received c1.sn.idx).drop p <+: xs.flatMap Packet.bytes := by
      intro n
      have := hs (n + 1)
      rw [List.take_succ_cons, hT] at this
      exact this
    have hq' : ∀ t ∈ ts, t.quiet c1.sn.idx := fun t ht => hq t (List.mem_cons_of_mem _ ht)
    rcases a4 with ⟨rfl, b2, b3⟩ | ⟨x, xs', rfl, rfl, b3⟩
    · obtain ⟨n, c1', c2, c3, c4, c5, c6⟩ := ih w1 p xs b2 hq' hok hs'
      rw [hT]
      refine ⟨n, c1', .none c2, c3, c4.trans a2.sent, c5, fun m j hj hm hp => ?_⟩
      cases m with
      | zero =>
        cases j with
        | zero => omega
        | succ j =>
          cases xs with
          | nil => simp at hj
          | cons x xs' =>
            rw [List.take_succ_cons, List.flatMap_cons] at hp
            exact absurd ((List.prefix_append _ _).trans hp) (b3 x xs' rfl)
      | succ m =>
        rw [List.take_succ_cons, hT] at hp
        exact c6 m j hj (by simp at hm; omega) hp
    · obtain ⟨n, c1', c2, c3, c4, c5, c6⟩ := ih w1 (p + x.bytes.length) xs' b3 hq' (fun y hy => hok y (List.mem_cons_of_mem _ hy))
        (fun n => prefix_shorten (by have := hs' n; rwa [List.flatMap_cons] at this))
      rw [hT]
      refine ⟨n + 1, by simp; omega, .packet c2, c3, c4.trans a2.sent, ?_, fun m j hj hm hp => ?_⟩
      · rw [List.take_succ_cons, List.flatMap_cons, List.length_append, ← Nat.add_assoc]; exact c5
      · cases j with
        | zero => omega
        | succ j =>
          rw [List.take_succ_cons, List.flatMap_cons] at hp
          simp only [List.length_cons] at hj hm
          cases m with
          | zero =>
            have := c6 0 j (by omega) (by omega) (prefix_rest (hp.trans (_root_.Verif.prefix_drop a3 p)))
            omega
          | succ m =>
            rw [List.take_succ_cons, hT] at hp
            have := c6 m j (by omega) (by omega) (prefix_rest hp)
            omega

/-- C103: while a connection is neither closed nor lost, an application that calls `process` again and again, and reads each message and
leaves its reader before the next call, sees exactly the packets the broker sent, each once and in order, however they are cut into
pieces and whenever these arrive; nothing is sent, and exactly the packets seen were consumed.  And every packet is seen: `j` turns after
the first `j` packets were completely received, these were seen.  (Release build: in a debug build `process` may end in the debug
assertion about the status of the socket.)  Missing: packets whose properties are 128 bytes or longer (`C47_suback_props_not`,
`C48_props_not`), and a CONNACK (`C50_not`). -/
theorem C103_session_partial (fuel : Nat) (ts : List Turn) (w : World) (c : Client) (p : Nat) (xs : List Packet)
    (hready : c.state = .ready) (htime : c.timeout = none) (hrx : RxState w.chip c.sn.toU8.toNat p)
    (hq : Spec.Mqtt.quiet (Spec.Mqtt.interrupts w.chip c.sn.toU8.toNat) = true) (hts : ∀ t ∈ ts, t.quiet c.sn.toU8.toNat)
    (hok : ∀ x ∈ xs, x.ok)
    (hs : ∀ n, ((turns fuel (ts.take n) (w, c)).2.1.chip.received c.sn.toU8.toNat).drop p <+: xs.flatMap Packet.bytes) :
    let k := c.sn.toU8.toNat
    let r := turns fuel ts (w, c)
    ∃ n, n ≤ xs.length ∧ Shows ts r.1 (xs.take n) ∧ r.2.2 = c ∧ r.2.1.chip.sent = w.chip.sent ∧
      RxState r.2.1.chip k (p + ((xs.take n).flatMap Packet.bytes).length) ∧
      ∀ m j, j ≤ xs.length → m + j ≤ ts.length →
        (xs.take j).flatMap Packet.bytes <+: ((turns fuel (ts.take m) (w, c)).2.1.chip.received k).drop p → j ≤ n := by
  change RxState w.chip c.sn.idx p at hrx
  obtain ⟨base, hb⟩ := hrx.at
  obtain ⟨n, h1, h2, h3, h4, h5, h6⟩ := session fuel c base ts w p xs ⟨hready, htime, hb, hq⟩ hts hok hs
  exact ⟨n, h1, h2, h3, h4, h5.rx.state, h6⟩

theorem shows_messages {ts : List Turn} {ss : List Seen} {xs : List Packet} (h : Shows ts ss xs) (ops : List PubOp)
    (ho : ∀ t ∈ ts, t.ops = ops) :
    MqttSession.messages ss = MqttSession.messages (xs.map (Packet.seen ops)) := by
  induction h with
  | nil => rfl
  | none _ ih => exact ih fun t ht => ho t (List.mem_cons_of_mem _ ht)
  | @packet t ts ss x xs _ ih =>
    have := ih fun t ht => ho t (List.mem_cons_of_mem _ ht)
    rw [ho t (List.mem_cons_self ..), List.map_cons]
    cases x <;> simp only [Packet.seen, MqttSession.messages, this]

/-- C103, what the application reads: if it does the same with every message, and all packets were received before the last calls, the
contents it got are those of the messages, in order, without a gap or a repetition. -/
theorem C103_messages_partial (fuel : Nat) (ts : List Turn) (w : World) (c : Client) (p : Nat) (xs : List Packet) (ops : List PubOp) (m : Nat)
    (hready : c.state = .ready) (htime : c.timeout = none) (hrx : RxState w.chip c.sn.toU8.toNat p)
    (hq : Spec.Mqtt.quiet (Spec.Mqtt.interrupts w.chip c.sn.toU8.toNat) = true) (hts : ∀ t ∈ ts, t.quiet c.sn.toU8.toNat)
    (hops : ∀ t ∈ ts, t.ops = ops) (hok : ∀ x ∈ xs, x.ok)
    (hs : ∀ n, ((turns fuel (ts.take n) (w, c)).2.1.chip.received c.sn.toU8.toNat).drop p <+: xs.flatMap Packet.bytes)
    (hall : xs.flatMap Packet.bytes <+: ((turns fuel (ts.take m) (w, c)).2.1.chip.received c.sn.toU8.toNat).drop p)
    (hm : m + xs.length ≤ ts.length) :
    MqttSession.messages (turns fuel ts (w, c)).1 = MqttSession.messages (xs.map (Packet.seen ops)) := by
  obtain ⟨n, h1, h2, -, -, -, h6⟩ := C103_session_partial fuel ts w c p xs hready htime hrx hq hts hok hs
  have hn := h6 m xs.length (Nat.le_refl _) hm (by rw [List.take_length]; exact hall)
  rw [List.take_of_length_le hn] at h2
  exact shows_messages h2 ops hops

/-- Two messages, a SUBACK and a PINGRESP: the first message is complete after the first turn, its beginning arrives before and its end
while `process` runs; the others arrive together. -/
def exPackets : List Packet := [.message [116] [1, 2] [] 0, .subAck 258 .notAuthorized [7], .other 13 0 [], .message [117] [3] [] 1]
def exTurns : List Turn :=
  [⟨[.arrive 3 [0x30, 6, 0]], 5, [[], [.arrive 3 [1, 116]]], [.topic 9, .payload 9]⟩,
   ⟨[.arrive 3 [0, 1, 2], .raise 3 4], 6, [[.arrive 3 [0x90, 5, 1, 2, 1, 7, 0x87, 0xD0, 0, 0x31]]], [.topic 9, .payload 9]⟩,
   ⟨[.arrive 3 [5, 0, 1, 117, 0, 3]], 7, [], [.topic 9, .payload 9]⟩,
   ⟨[], 8, [], [.topic 9, .payload 9]⟩, ⟨[], 9, [], [.topic 9, .payload 9]⟩, ⟨[], 10, [], [.topic 9, .payload 9]⟩, ⟨[], 11, [], [.topic 9, .payload 9]⟩]

theorem exPackets_bytes : exPackets.flatMap Packet.bytes =
    [0x30, 6, 0, 1, 116, 0, 1, 2, 0x90, 5, 1, 2, 1, 7, 0x87, 0xD0, 0, 0x31, 5, 0, 1, 117, 0, 3] := by
  have e1 : (Packet.message [116] [1, 2] [] 0).bytes = [0x30, 6, 0, 1, 116, 0, 1, 2] := by
    unfold Packet.bytes Spec.Mqtt.publish Spec.Mqtt.str Spec.Mqtt.u16
    have h : Spec.Mqtt.vbi ([] : Bytes).length = [0] := vbi_small (by decide)
    dsimp only
    rw [h, packet_small _ _ _ (by decide)]
    decide
  have e4 : (Packet.message [117] [3] [] 1).bytes = [0x31, 5, 0, 1, 117, 0, 3] := by
    unfold Packet.bytes Spec.Mqtt.publish Spec.Mqtt.str Spec.Mqtt.u16
    have h : Spec.Mqtt.vbi ([] : Bytes).length = [0] := vbi_small (by decide)
    dsimp only
    rw [h, packet_small _ _ _ (by decide)]
    decide
  have e2 : (Packet.subAck 258 .notAuthorized [7]).bytes = [0x90, 5, 1, 2, 1, 7, 0x87] := ack_small 9 258 [7] _ (by decide)
  have e3 : (Packet.other 13 0 []).bytes = [0xD0, 0] := packet_small 13 0 [] (by decide)
  unfold exPackets
  simp only [List.flatMap_cons, e1, e2, e3, e4]
  rfl

example : (tcpClient .ready).state = .ready ∧ (tcpClient .ready).timeout = none ∧
    Spec.Mqtt.quiet (Spec.Mqtt.interrupts (tcpWorld 0 []).chip 3) = true := by decide +kernel
example : RxState (tcpWorld 0 []).chip 3 0 :=
  ⟨by decide +kernel, by decide +kernel, by decide +kernel, by decide +kernel, by decide +kernel, by decide +kernel⟩
example : ∀ t ∈ exTurns, t.quiet 3 := by
  unfold Turn.quiet exTurns
  intro t ht
  simp only [List.mem_cons, List.not_mem_nil, or_false] at ht
  rcases ht with rfl | rfl | rfl | rfl | rfl | rfl | rfl <;> simp <;> decide
def exReceived (n : Nat) : Bytes := ((turns 1 (exTurns.take n) (tcpWorld 0 [], tcpClient .ready)).2.1.chip.received 3).drop 0
theorem exTurns_received : ∀ n, n < 8 →
    (exReceived n).isPrefixOf [0x30, 6, 0, 1, 116, 0, 1, 2, 0x90, 5, 1, 2, 1, 7, 0x87, 0xD0, 0, 0x31, 5, 0, 1, 117, 0, 3] = true := by
  decide +kernel
example : ∀ n, ((turns 1 (exTurns.take n) (tcpWorld 0 [], tcpClient .ready)).2.1.chip.received 3).drop 0 <+: exPackets.flatMap Packet.bytes := by
  intro n
  rw [exPackets_bytes]
  change exReceived n <+: _
  generalize hb : ([0x30, 6, 0, 1, 116, 0, 1, 2, 0x90, 5, 1, 2, 1, 7, 0x87, 0xD0, 0, 0x31, 5, 0, 1, 117, 0, 3] : Bytes) = b
  have hall := exTurns_received
  rw [hb] at hall
  by_cases h : n < 8
  · exact List.isPrefixOf_iff_prefix.mp (hall n h)
  · have h6 : exReceived n = exReceived 7 := by
      unfold exReceived
      rw [List.take_of_length_le (show exTurns.length ≤ n by simp [exTurns]; omega), List.take_of_length_le (show exTurns.length ≤ 7 by simp [exTurns])]
    rw [h6]
    exact List.isPrefixOf_iff_prefix.mp (hall 7 (by decide))
example : (turns 1 exTurns (tcpWorld 0 [], tcpClient .ready)).1 =
    [.nothing, .message [.ok (.ok [116]), .ok (.ok [1, 2])], .subAck 258 .notAuthorized, .nothing,
     .message [.ok (.ok [117]), .ok (.ok [3])], .nothing, .nothing] := by decide +kernel
example : exReceived 3 = [0x30, 6, 0, 1, 116, 0, 1, 2, 0x90, 5, 1, 2, 1, 7, 0x87, 0xD0, 0, 0x31, 5, 0, 1, 117, 0, 3] := by decide +kernel

end Verif.Thm
