import Verif.Proof.MqttIn
import Verif.Spec.MqttSession
/-!
# C47, C48, C50, C70: MQTT packets received by the client

In these theorems `process` is called once connecting was started, and finds none of the interrupts CON, DISCON and TIMEOUT set when it
reads the interrupt register, which is after one step of the environment.  The alternative `dbg = true` is the debug assertion that the
socket is not a UDP socket.
-/
namespace Verif.Thm
open Verif Hl Spec Verif.Mqtt
open Verif.Spec.MqttSession (PubOp readResult useReader)

theorem findCode_ok {α : Type} (code : α → UInt8) (all : List α) (hall : ∀ a, a ∈ all) (hinj : ∀ a b, code a = code b → a = b) (a : α) :
    findCode code all (code a) = .ok a := by
  unfold findCode
  cases h : all.find? fun b => decide (code a = code b) with
  | none =>
    have := List.find?_eq_none.mp h a (hall a)
    simp at this
  | some b =>
    have := List.find?_some h
    simp at this
    rw [hinj _ _ this]

theorem findCode_error {α : Type} (code : α → UInt8) (all : List α) (x : UInt8) (h : ∀ a, code a ≠ x) : findCode code all x = .error x := by
  unfold findCode
  rw [List.find?_eq_none.mpr]
  intro a _
  simpa using fun e => h a e.symm

theorem connect_code (a : ConnectReasonCode) : ConnectReasonCode.tryFrom a.code = .ok a := by
  apply findCode_ok
  · intro a; cases a <;> decide
  · intro a b; cases a <;> cases b <;> decide
theorem subAck_code (a : SubAckReasonCode) : SubAckReasonCode.tryFrom a.code = .ok a := by
  apply findCode_ok
  · intro a; cases a <;> decide
  · intro a b; cases a <;> cases b <;> decide
theorem unSubAck_code (a : UnSubAckReasonCode) : UnSubAckReasonCode.tryFrom a.code = .ok a := by
  apply findCode_ok
  · intro a; cases a <;> decide
  · intro a b; cases a <;> cases b <;> decide

/-- A CONNACK of any length, and what does not change. -/
theorem connack_calm (dbg : Bool) (fuel : Nat) (secs : UInt32) (w : World) (c : Client) (p : Nat) (hc : c.state = .waitConAck)
    (hq : Spec.Mqtt.quiet (Spec.Mqtt.interrupts w.tick.chip c.sn.idx) = true) (hrx : RxState w.chip c.sn.idx p)
    (sp code : UInt8) (tail : Bytes) (hp : Spec.Mqtt.packet 2 0 ([sp, code] ++ tail) <+: (w.chip.received c.sn.idx).drop p) :
    let r := process dbg fuel worldBus secs (w, c)
    (r.1 = .error .panic ∧ dbg = true ∧ RxState r.2.1.chip c.sn.idx p) ∨
    (RxState r.2.1.chip c.sn.idx (p + (tail.length + 4)) ∧ r.2.1.chip.sent = w.chip.sent ∧
      (code = 0 → r.1 = .ok (.ok .connAck) ∧ r.2.2 = { c with state := .ready, timeout := none }) ∧
      (code ≠ 0 → r.2.2 = { c with state := .init, timeout := none } ∧
        (∀ reason : ConnectReasonCode, reason.code = code → r.1 = .ok (.error (.connAck reason))) ∧
        ((∀ reason : ConnectReasonCode, reason.code ≠ code) → r.1 = .ok (.error .protocol))) ∧
      TxCalm c.sn.idx w r.2.1 ∧ w.chip.received c.sn.idx <+: r.2.1.chip.received c.sn.idx) := by
  intro r
  obtain ⟨base, hb⟩ := hrx.at
  rcases packet_in dbg fuel secs w c (by rw [hc]; decide) hq base p hb 2 0 _ hp with ⟨w1, h1, h2, h3⟩ | ⟨rest, w2, h1, h2, h3, -⟩
  · left
    change process dbg fuel worldBus secs (w, c) = _ at h1
    change (process dbg fuel worldBus secs (w, c)).1 = _ ∧ _ ∧ RxState (process dbg fuel worldBus secs (w, c)).2.1.chip _ _
    rw [h1]
    exact ⟨rfl, h3, (h2.rx _ _ hb).state⟩
  · right
    have hnib : CtrlPkt.ofNibble (UInt8.ofNat (2 * 16 + 0) >>> 4) = .connack := by decide
    have hn : (UInt16.ofNat ([sp, code] ++ tail).length).toNat = tail.length + 2 := by
      rw [ofNat16_toNat]
      · simp
      · simp [Spec.Mqtt.packet] at h2 ⊢; omega
    have hbody := body_connAck (Spec.Mqtt.packet 2 0 ([sp, code] ++ tail) ++ rest) (1 + (Spec.Mqtt.vbi ([sp, code] ++ tail).length).length)
      sp code (tail ++ rest) (UInt16.ofNat ([sp, code] ++ tail).length)
      (drop_at (pre := UInt8.ofNat (2 * 16 + 0) :: Spec.Mqtt.vbi ([sp, code] ++ tail).length) (by simp [Spec.Mqtt.packet]) (by simp; omega))
      (by
        rw [hn]
        have := isVbi_ne (vbi_isVbi ([sp, code] ++ tail).length)
        have := Nat.pos_of_ne_zero this
        simp [Spec.Mqtt.packet] at this ⊢; omega) h2
    have hbd : recvBody c.state (header 2 0 ([sp, code] ++ tail)) = recvConnAck .waitConAck (UInt16.ofNat ([sp, code] ++ tail).length) := by
      unfold recvBody header
      dsimp only
      rw [hnib, hc]
    rw [← hbd] at hbody
    obtain ⟨r', g1, g2, g3⟩ := h3 _ _ hbody
    obtain ⟨w', e1, e2, e3, e4⟩ := finish_done c g2 g1
    rw [hn] at e2
    dsimp only at e2
    have hfin : ∀ x, (onBus (tcpReaderDone worldBus r') >>= fun _ => x) (w2, c) = (x : M (World × Client) (Except MErr (Option Event))) (w', c) := by
      intro x; rw [M.bind_ok e1]
    have hr : r = (recvFinish worldBus r' (.connAck code) >>= after dbg secs) (w2, c) := g3
    have key : r.2.1 = w' ∧ (code = 0 → r.1 = .ok (.ok .connAck) ∧ r.2.2 = { c with state := .ready, timeout := none }) ∧
      (code ≠ 0 → r.2.2 = { c with state := .init, timeout := none } ∧
        (∀ reason : ConnectReasonCode, reason.code = code → r.1 = .ok (.error (.connAck reason))) ∧
        ((∀ reason : ConnectReasonCode, reason.code ≠ code) → r.1 = .ok (.error .protocol))) := by
      rw [M.bind_run] at hr
      unfold recvFinish at hr
      dsimp only at hr
      rw [hfin] at hr
      by_cases hz : code = 0
      · subst hz
        rw [show ConnectReasonCode.tryFrom 0 = .error 0 by decide] at hr
        rw [hr]
        exact ⟨rfl, fun _ => ⟨rfl, rfl⟩, fun h => absurd rfl h⟩
      · by_cases he : ∃ reason : ConnectReasonCode, reason.code = code
        · obtain ⟨reason, rfl⟩ := he
          rw [connect_code] at hr
          rw [hr]
          refine ⟨rfl, fun h => absurd h hz, fun _ => ⟨rfl, ?_, fun h => absurd rfl (h reason)⟩⟩
          intro reason' hre
          have := connect_code reason'
          rw [hre, connect_code] at this
          injection this with this
          rw [this]; rfl
        · have he' : ∀ reason : ConnectReasonCode, reason.code ≠ code := fun a h => he ⟨a, h⟩
          rw [show ConnectReasonCode.tryFrom code = .error code from findCode_error _ _ _ he'] at hr
          dsimp only at hr
          rw [if_neg hz] at hr
          rw [hr]
          exact ⟨rfl, fun h => absurd h hz, fun _ => ⟨rfl, fun a h => absurd h (he' a), fun _ => rfl⟩⟩
    obtain ⟨k1, k2, k3⟩ := key
    refine ⟨?_, ?_, k2, k3, ?_, ?_⟩
    · rw [k1]; exact e2.state
    · rw [k1, e3.sent, h1.sent]
    · rw [k1]; exact h1.toTxCalm.trans e3
    · rw [k1]; exact h1.recvd.trans e4

/-- A CONNACK of any length. -/
theorem connack_in (dbg : Bool) (fuel : Nat) (secs : UInt32) (w : World) (c : Client) (p : Nat) (hc : c.state = .waitConAck)
    (hq : Spec.Mqtt.quiet (Spec.Mqtt.interrupts w.tick.chip c.sn.idx) = true) (hrx : RxState w.chip c.sn.idx p)
    (sp code : UInt8) (tail : Bytes) (hp : Spec.Mqtt.packet 2 0 ([sp, code] ++ tail) <+: (w.chip.received c.sn.idx).drop p) :
    let r := process dbg fuel worldBus secs (w, c)
    (r.1 = .error .panic ∧ dbg = true ∧ RxState r.2.1.chip c.sn.idx p) ∨
    (RxState r.2.1.chip c.sn.idx (p + (tail.length + 4)) ∧ r.2.1.chip.sent = w.chip.sent ∧
      (code = 0 → r.1 = .ok (.ok .connAck) ∧ r.2.2 = { c with state := .ready, timeout := none }) ∧
      (code ≠ 0 → r.2.2 = { c with state := .init, timeout := none } ∧
        (∀ reason : ConnectReasonCode, reason.code = code → r.1 = .ok (.error (.connAck reason))) ∧
        ((∀ reason : ConnectReasonCode, reason.code ≠ code) → r.1 = .ok (.error .protocol)))) := by
  intro r
  exact (connack_calm dbg fuel secs w c p hc hq hrx sp code tail hp).imp id fun h => ⟨h.1, h.2.1, h.2.2.1, h.2.2.2.1⟩

/-- C47 for a CONNACK received while waiting for it, of a remaining length below 128: `process` reports the connection (code 0) or
an error with the reason, the client becomes connected or is reset, and exactly this packet was consumed.  Missing: longer packets, see
`C47_connack_long_not`. -/
theorem C47_connack_partial (dbg : Bool) (fuel : Nat) (secs : UInt32) (w : World) (c : Client) (p : Nat) (hc : c.state = .waitConAck)
    (hq : Spec.Mqtt.quiet (Spec.Mqtt.interrupts w.tick.chip c.sn.toU8.toNat) = true) (hrx : RxState w.chip c.sn.toU8.toNat p)
    (sp code : UInt8) (props : Bytes) (hl : props.length < 125)
    (hp : Spec.Mqtt.connack sp code props <+: (w.chip.received c.sn.toU8.toNat).drop p) :
    let k := c.sn.toU8.toNat
    let r := process dbg fuel worldBus secs (w, c)
    (r.1 = .error .panic ∧ dbg = true ∧ RxState r.2.1.chip k p) ∨
    (RxState r.2.1.chip k (p + (Spec.Mqtt.connack sp code props).length) ∧ r.2.1.chip.sent = w.chip.sent ∧
      (code = 0 → r.1 = .ok (.ok .connAck) ∧ r.2.2 = { c with state := .ready, timeout := none }) ∧
      (code ≠ 0 → r.2.2 = { c with state := .init, timeout := none } ∧
        (∀ reason : ConnectReasonCode, reason.code = code → r.1 = .ok (.error (.connAck reason))) ∧
        ((∀ reason : ConnectReasonCode, reason.code ≠ code) → r.1 = .ok (.error .protocol)))) := by
  change RxState w.chip c.sn.idx p at hrx
  have hv : Spec.Mqtt.vbi props.length = [UInt8.ofNat props.length] := by rw [Spec.Mqtt.vbi.eq_1, if_pos (by omega)]
  have hlen : (Spec.Mqtt.connack sp code props).length = (Spec.Mqtt.vbi props.length ++ props).length + 4 := by
    unfold Spec.Mqtt.connack Spec.Mqtt.packet
    rw [hv, Spec.Mqtt.vbi.eq_1, if_pos (by simp; omega)]
    simp
  have := connack_in dbg fuel secs w c p hc hq hrx sp code (Spec.Mqtt.vbi props.length ++ props) hp
  rw [← hlen] at this
  exact this

/-- The negation of C47 for a CONNACK of a remaining length of 128 or more: `process` handles it, but does not consume all of it: the
rest is taken for the beginning of the next packet. -/
theorem C47_connack_long_not (dbg : Bool) (fuel : Nat) (secs : UInt32) (w : World) (c : Client) (p : Nat) (hc : c.state = .waitConAck)
    (hq : Spec.Mqtt.quiet (Spec.Mqtt.interrupts w.tick.chip c.sn.toU8.toNat) = true) (hrx : RxState w.chip c.sn.toU8.toNat p)
    (sp : UInt8) (props : Bytes) (hl : 125 ≤ props.length)
    (hp : Spec.Mqtt.connack sp 0 props <+: (w.chip.received c.sn.toU8.toNat).drop p) (hd : dbg = false) :
    let k := c.sn.toU8.toNat
    let r := process dbg fuel worldBus secs (w, c)
    r.1 = .ok (.ok .connAck) ∧ ∃ q, q < p + (Spec.Mqtt.connack sp 0 props).length ∧ RxState r.2.1.chip k q := by
  change RxState w.chip c.sn.idx p at hrx
  rcases connack_in dbg fuel secs w c p hc hq hrx sp 0 (Spec.Mqtt.vbi props.length ++ props) hp with ⟨-, h, -⟩ | ⟨h1, -, h2, -⟩
  · rw [hd] at h; cases h
  · refine ⟨(h2 rfl).1, _, ?_, h1⟩
    have hpos := Nat.pos_of_ne_zero (isVbi_ne (vbi_isVbi props.length))
    have h2 : 2 ≤ (Spec.Mqtt.vbi ([sp, 0] ++ (Spec.Mqtt.vbi props.length ++ props)).length).length := by
      rw [Spec.Mqtt.vbi.eq_1, if_neg (by simp; omega)]
      have := Nat.pos_of_ne_zero (isVbi_ne (vbi_isVbi (([sp, 0] ++ (Spec.Mqtt.vbi props.length ++ props)).length / 128)))
      simp only [List.length_cons]; omega
    unfold Spec.Mqtt.connack Spec.Mqtt.packet
    simp at h2 ⊢
    omega

/-- A SUBACK in the reader of a call of `process`. -/
theorem suback_seen {dbg : Bool} {fuel : Nat} {secs : UInt32} {w : World} {c : Client} {base p : Nat}
    (id : UInt16) (reason : SubAckReasonCode) (props : Bytes) (hl : props.length < 128)
    (hs : SeenPacket dbg fuel secs w c base p 9 0 (Spec.Mqtt.u16 id.toNat ++ (Spec.Mqtt.vbi props.length ++ props) ++ [reason.code])) :
    ∃ w', process dbg fuel worldBus secs (w, c) = (.ok (.ok (.subAck id reason)), (w', c)) ∧
      RxAt w'.chip c.sn.idx base (p + (Spec.Mqtt.ack 9 id.toNat props [reason.code]).length) ∧ TxCalm c.sn.idx w w' ∧
      w.chip.received c.sn.idx <+: w'.chip.received c.sn.idx := by
  have hv : Spec.Mqtt.vbi props.length = [UInt8.ofNat props.length] := by rw [Spec.Mqtt.vbi.eq_1, if_pos (by omega)]
  generalize hbody : Spec.Mqtt.u16 id.toNat ++ (Spec.Mqtt.vbi props.length ++ props) ++ [reason.code] = body at *
  have hpk : Spec.Mqtt.ack 9 id.toNat props [reason.code] = Spec.Mqtt.packet 9 0 body := by rw [← hbody]; rfl
  rw [hpk]
  obtain ⟨rest, w2, h1, h2, h3, -⟩ := hs
  have hnib : CtrlPkt.ofNibble (UInt8.ofNat (9 * 16 + 0) >>> 4) = .suback := by decide
  have hpl : (UInt8.ofNat props.length).toNat = props.length := by simp; omega
  have hrun := body_ack subAckOut (Spec.Mqtt.packet 9 0 body ++ rest) (1 + (Spec.Mqtt.vbi body.length).length)
    (UInt8.ofNat (id.toNat / 256)) (UInt8.ofNat id.toNat) (UInt8.ofNat props.length) reason.code props rest hpl.symm
    (drop_at (pre := UInt8.ofNat (9 * 16 + 0) :: Spec.Mqtt.vbi body.length) (by rw [← hbody, hv]; simp [Spec.Mqtt.packet, Spec.Mqtt.u16])
      (by simp; omega))
  have hbd : recvBody c.state (header 9 0 body) = recvAck subAckOut := by
    unfold recvBody header
    dsimp only
    rw [hnib]
  have hid : be16 (UInt8.ofNat (id.toNat / 256)) (UInt8.ofNat id.toNat) = id := by
    apply UInt16.toNat_inj.mp
    have := id.toNat_lt
    rw [be16_toNat, UInt8.toNat_ofNat', UInt8.toNat_ofNat']; omega
  rw [← hbd, hid, show subAckOut id reason.code = .subAck id reason by unfold subAckOut; rw [subAck_code]] at hrun
  obtain ⟨r', g1, g2, g3⟩ := h3 _ _ hrun
  obtain ⟨w', e1, e2, e3, e4⟩ := finish_done c g2 g1
  have hr : process dbg fuel worldBus secs (w, c) = (.ok (.ok (.subAck id reason)), (w', c)) := by
    refine g3.trans ?_
    unfold recvFinish
    dsimp only
    rw [bind_assoc, M.bind_ok e1]
    rfl
  have hlen : 1 + (Spec.Mqtt.vbi body.length).length + 3 + (UInt8.ofNat props.length).toNat + 1 = (Spec.Mqtt.packet 9 0 body).length := by
    rw [hpl]
    have : body.length = 2 + 1 + props.length + 1 := by rw [← hbody, hv]; simp [Spec.Mqtt.u16]; omega
    unfold Spec.Mqtt.packet
    rw [List.length_cons, List.length_append]; omega
  dsimp only at e2
  rw [hlen] at e2
  exact ⟨w', hr, e2, h1.toTxCalm.trans e3, h1.recvd.trans e4⟩

/-- C47 for a SUBACK with one reason code and fewer than 128 bytes of properties: `process` returns its identifier and the reason, the
client does not change, and exactly this packet was consumed.  (A client subscribes to one filter at a time, so there is one code.)
Missing: 128 or more bytes of properties, whose length the client reads as one byte, see `C47_suback_props_not`. -/
theorem C47_suback_partial (dbg : Bool) (fuel : Nat) (secs : UInt32) (w : World) (c : Client) (p : Nat) (hc : c.state ≠ .init)
    (hq : Spec.Mqtt.quiet (Spec.Mqtt.interrupts w.tick.chip c.sn.toU8.toNat) = true) (hrx : RxState w.chip c.sn.toU8.toNat p)
    (id : UInt16) (reason : SubAckReasonCode) (props : Bytes) (hl : props.length < 128)
    (hp : Spec.Mqtt.ack 9 id.toNat props [reason.code] <+: (w.chip.received c.sn.toU8.toNat).drop p) :
    let k := c.sn.toU8.toNat
    let r := process dbg fuel worldBus secs (w, c)
    (r.1 = .error .panic ∧ dbg = true ∧ RxState r.2.1.chip k p) ∨
    (r.1 = .ok (.ok (.subAck id reason)) ∧ r.2.2 = c ∧ r.2.1.chip.sent = w.chip.sent ∧
      RxState r.2.1.chip k (p + (Spec.Mqtt.ack 9 id.toNat props [reason.code]).length)) := by
  change RxState w.chip c.sn.idx p at hrx
  intro k r
  obtain ⟨base, hb⟩ := hrx.at
  rcases packet_in dbg fuel secs w c hc hq base p hb 9 0 _ hp with ⟨w1, h1, h2, h3⟩ | hs
  · left
    change process dbg fuel worldBus secs (w, c) = _ at h1
    change (process dbg fuel worldBus secs (w, c)).1 = _ ∧ _ ∧ RxState (process dbg fuel worldBus secs (w, c)).2.1.chip _ _
    rw [h1]
    exact ⟨rfl, h3, (h2.rx _ _ hb).state⟩
  · right
    obtain ⟨w', g1, g2, g3, -⟩ := suback_seen id reason props hl hs
    have hr : r = _ := g1
    rw [hr]
    exact ⟨rfl, rfl, g3.sent, g2.state⟩

/-- A UNSUBACK in the reader of a call of `process`. -/
theorem unsuback_seen {dbg : Bool} {fuel : Nat} {secs : UInt32} {w : World} {c : Client} {base p : Nat}
    (id : UInt16) (reason : UnSubAckReasonCode) (props : Bytes) (hl : props.length < 128)
    (hs : SeenPacket dbg fuel secs w c base p 11 0 (Spec.Mqtt.u16 id.toNat ++ (Spec.Mqtt.vbi props.length ++ props) ++ [reason.code])) :
    ∃ w', process dbg fuel worldBus secs (w, c) = (.ok (.ok (.unSubAck id reason)), (w', c)) ∧
      RxAt w'.chip c.sn.idx base (p + (Spec.Mqtt.ack 11 id.toNat props [reason.code]).length) ∧ TxCalm c.sn.idx w w' ∧
      w.chip.received c.sn.idx <+: w'.chip.received c.sn.idx := by
  have hv : Spec.Mqtt.vbi props.length = [UInt8.ofNat props.length] := by rw [Spec.Mqtt.vbi.eq_1, if_pos (by omega)]
  generalize hbody : Spec.Mqtt.u16 id.toNat ++ (Spec.Mqtt.vbi props.length ++ props) ++ [reason.code] = body at *
  have hpk : Spec.Mqtt.ack 11 id.toNat props [reason.code] = Spec.Mqtt.packet 11 0 body := by rw [← hbody]; rfl
  rw [hpk]
  obtain ⟨rest, w2, h1, h2, h3, -⟩ := hs
  have hnib : CtrlPkt.ofNibble (UInt8.ofNat (11 * 16 + 0) >>> 4) = .unsuback := by decide
  have hpl : (UInt8.ofNat props.length).toNat = props.length := by simp; omega
  have hrun := body_ack unSubAckOut (Spec.Mqtt.packet 11 0 body ++ rest) (1 + (Spec.Mqtt.vbi body.length).length)
    (UInt8.ofNat (id.toNat / 256)) (UInt8.ofNat id.toNat) (UInt8.ofNat props.length) reason.code props rest hpl.symm
    (drop_at (pre := UInt8.ofNat (11 * 16 + 0) :: Spec.Mqtt.vbi body.length) (by rw [← hbody, hv]; simp [Spec.Mqtt.packet, Spec.Mqtt.u16])
      (by simp; omega))
  have hbd : recvBody c.state (header 11 0 body) = recvAck unSubAckOut := by
    unfold recvBody header
    dsimp only
    rw [hnib]
  have hid : be16 (UInt8.ofNat (id.toNat / 256)) (UInt8.ofNat id.toNat) = id := by
    apply UInt16.toNat_inj.mp
    have := id.toNat_lt
    rw [be16_toNat, UInt8.toNat_ofNat', UInt8.toNat_ofNat']; omega
  rw [← hbd, hid, show unSubAckOut id reason.code = .unSubAck id reason by unfold unSubAckOut; rw [unSubAck_code]] at hrun
  obtain ⟨r', g1, g2, g3⟩ := h3 _ _ hrun
  obtain ⟨w', e1, e2, e3, e4⟩ := finish_done c g2 g1
  have hr : process dbg fuel worldBus secs (w, c) = (.ok (.ok (.unSubAck id reason)), (w', c)) := by
    refine g3.trans ?_
    unfold recvFinish
    dsimp only
    rw [bind_assoc, M.bind_ok e1]
    rfl
  have hlen : 1 + (Spec.Mqtt.vbi body.length).length + 3 + (UInt8.ofNat props.length).toNat + 1 = (Spec.Mqtt.packet 11 0 body).length := by
    rw [hpl]
    have : body.length = 2 + 1 + props.length + 1 := by rw [← hbody, hv]; simp [Spec.Mqtt.u16]; omega
    unfold Spec.Mqtt.packet
    rw [List.length_cons, List.length_append]; omega
  dsimp only at e2
  rw [hlen] at e2
  exact ⟨w', hr, e2, h1.toTxCalm.trans e3, h1.recvd.trans e4⟩

/-- C47 for a UNSUBACK with one reason code and fewer than 128 bytes of properties: `process` returns its identifier and the reason, the
client does not change, and exactly this packet was consumed.  (A client subscribes to one filter at a time, so there is one code.)
Missing: 128 or more bytes of properties, whose length the client reads as one byte, see `C47_suback_props_not`. -/
theorem C47_unsuback_partial (dbg : Bool) (fuel : Nat) (secs : UInt32) (w : World) (c : Client) (p : Nat) (hc : c.state ≠ .init)
    (hq : Spec.Mqtt.quiet (Spec.Mqtt.interrupts w.tick.chip c.sn.toU8.toNat) = true) (hrx : RxState w.chip c.sn.toU8.toNat p)
    (id : UInt16) (reason : UnSubAckReasonCode) (props : Bytes) (hl : props.length < 128)
    (hp : Spec.Mqtt.ack 11 id.toNat props [reason.code] <+: (w.chip.received c.sn.toU8.toNat).drop p) :
    let k := c.sn.toU8.toNat
    let r := process dbg fuel worldBus secs (w, c)
    (r.1 = .error .panic ∧ dbg = true ∧ RxState r.2.1.chip k p) ∨
    (r.1 = .ok (.ok (.unSubAck id reason)) ∧ r.2.2 = c ∧ r.2.1.chip.sent = w.chip.sent ∧
      RxState r.2.1.chip k (p + (Spec.Mqtt.ack 11 id.toNat props [reason.code]).length)) := by
  change RxState w.chip c.sn.idx p at hrx
  intro k r
  obtain ⟨base, hb⟩ := hrx.at
  rcases packet_in dbg fuel secs w c hc hq base p hb 11 0 _ hp with ⟨w1, h1, h2, h3⟩ | hs
  · left
    change process dbg fuel worldBus secs (w, c) = _ at h1
    change (process dbg fuel worldBus secs (w, c)).1 = _ ∧ _ ∧ RxState (process dbg fuel worldBus secs (w, c)).2.1.chip _ _
    rw [h1]
    exact ⟨rfl, h3, (h2.rx _ _ hb).state⟩
  · right
    obtain ⟨w', g1, g2, g3, -⟩ := unsuback_seen id reason props hl hs
    have hr : r = _ := g1
    rw [hr]
    exact ⟨rfl, rfl, g3.sent, g2.state⟩

/-- The negation of C47 for a SUBACK with 128 to 255 bytes of properties: if their last byte is a reason code, `process` returns that
one instead of the one of the packet, and leaves the last byte of the packet in the queue. -/
theorem C47_suback_props_not (fuel : Nat) (secs : UInt32) (w : World) (c : Client) (p : Nat) (hc : c.state ≠ .init)
    (hq : Spec.Mqtt.quiet (Spec.Mqtt.interrupts w.tick.chip c.sn.toU8.toNat) = true) (hrx : RxState w.chip c.sn.toU8.toNat p)
    (id : UInt16) (reason wrong : SubAckReasonCode) (props : Bytes) (hl : 127 ≤ props.length) (hl' : props.length < 255)
    (hp : Spec.Mqtt.ack 9 id.toNat (props ++ [wrong.code]) [reason.code] <+: (w.chip.received c.sn.toU8.toNat).drop p) :
    let k := c.sn.toU8.toNat
    let r := process false fuel worldBus secs (w, c)
    r.1 = .ok (.ok (.subAck id wrong)) ∧
      RxState r.2.1.chip k (p + (Spec.Mqtt.ack 9 id.toNat (props ++ [wrong.code]) [reason.code]).length - 1) := by
  change RxState w.chip c.sn.idx p at hrx
  intro k r
  obtain ⟨base, hb⟩ := hrx.at
  have hv : Spec.Mqtt.vbi (props ++ [wrong.code]).length = [UInt8.ofNat (props.length + 1), 1] := by
    rw [Spec.Mqtt.vbi.eq_1, if_neg (by simp; omega), Spec.Mqtt.vbi.eq_1, if_pos (by simp; omega), List.length_append]
    change [UInt8.ofNat ((props.length + 1) % 128 + 128), UInt8.ofNat ((props.length + 1) / 128)] = _
    rw [show (props.length + 1) % 128 + 128 = props.length + 1 by omega, show (props.length + 1) / 128 = 1 by omega]
    rfl
  generalize hbody : Spec.Mqtt.u16 id.toNat ++ (Spec.Mqtt.vbi (props ++ [wrong.code]).length ++ (props ++ [wrong.code])) ++ [reason.code] = body at *
  have hpk : Spec.Mqtt.ack 9 id.toNat (props ++ [wrong.code]) [reason.code] = Spec.Mqtt.packet 9 0 body := by rw [← hbody]; rfl
  rw [hpk] at hp ⊢
  rcases packet_in false fuel secs w c hc hq base p hb 9 0 _ hp with ⟨w1, h1, h2, h3⟩ | ⟨rest, w2, h1, h2, h3, -⟩
  · cases h3
  · have hnib : CtrlPkt.ofNibble (UInt8.ofNat (9 * 16 + 0) >>> 4) = .suback := by decide
    have hpl : (UInt8.ofNat (props.length + 1)).toNat = props.length + 1 := by simp; omega
    have hrun := body_ack subAckOut (Spec.Mqtt.packet 9 0 body ++ rest) (1 + (Spec.Mqtt.vbi body.length).length)
      (UInt8.ofNat (id.toNat / 256)) (UInt8.ofNat id.toNat) (UInt8.ofNat (props.length + 1)) wrong.code (1 :: props) (reason.code :: rest)
      (by rw [hpl]; simp)
      (drop_at (pre := UInt8.ofNat (9 * 16 + 0) :: Spec.Mqtt.vbi body.length) (by rw [← hbody, hv]; simp [Spec.Mqtt.packet, Spec.Mqtt.u16])
        (by simp; omega))
    have hbd : recvBody c.state (header 9 0 body) = recvAck subAckOut := by
      unfold recvBody header
      dsimp only
      rw [hnib]
    have hid : be16 (UInt8.ofNat (id.toNat / 256)) (UInt8.ofNat id.toNat) = id := by
      apply UInt16.toNat_inj.mp
      have := id.toNat_lt
      rw [be16_toNat, UInt8.toNat_ofNat', UInt8.toNat_ofNat']; omega
    rw [← hbd, hid, show subAckOut id wrong.code = .subAck id wrong by unfold subAckOut; rw [subAck_code]] at hrun
    obtain ⟨r', g1, g2, g3⟩ := h3 _ _ hrun
    obtain ⟨w', e1, e2, e3, e4⟩ := finish_done c g2 g1
    have hr : r = (.ok (.ok (.subAck id wrong)), (w', c)) := by
      refine g3.trans ?_
      unfold recvFinish
      dsimp only
      rw [bind_assoc, M.bind_ok e1]
      rfl
    rw [hr]
    refine ⟨rfl, ?_⟩
    have hlen : p + (1 + (Spec.Mqtt.vbi body.length).length + 3 + (UInt8.ofNat (props.length + 1)).toNat + 1) =
        p + (Spec.Mqtt.packet 9 0 body).length - 1 := by
      rw [hpl]
      have : body.length = 2 + 2 + (props.length + 1) + 1 := by rw [← hbody, hv]; simp [Spec.Mqtt.u16]; omega
      unfold Spec.Mqtt.packet
      rw [List.length_cons, List.length_append]; omega
    dsimp only at e2
    rw [hlen] at e2
    exact e2.state

/-- How `process` ends when there is nothing to report: `x` is the result and `c'` the client afterwards.  Without a timeout there is no
event.  Otherwise, at most ten seconds after the time the timeout was started, the caller is told to call again when ten seconds have
passed, and after that the client is reset and the timeout reported.  With a clock that went back there is at least no event. -/
def Idle (secs : UInt32) (c : Client) (x : Except Err (Except MErr Event)) (c' : Client) : Prop :=
  (c.timeout = none → x = .ok (.ok .none) ∧ c' = c) ∧
  (∀ t, c.timeout = some t → t.toNat ≤ secs.toNat →
    (secs.toNat - t.toNat ≤ 10 → ∃ n, n.toNat = 10 - (secs.toNat - t.toNat) ∧ x = .ok (.ok (.callAfter n)) ∧ c' = c) ∧
    (10 < secs.toNat - t.toNat → x = .ok (.error (.stateTimeout c.state)) ∧ c' = { c with state := .init, timeout := none })) ∧
  (∀ ev, x = .ok (.ok ev) → ev = .none ∨ ∃ n, ev = .callAfter n)

theorem checkTimeout_idle (dbg : Bool) (secs : UInt32) (w : World) (c : Client) :
    (checkTimeout dbg secs (w, c)).2.1 = w ∧ Idle secs c (checkTimeout dbg secs (w, c)).1 (checkTimeout dbg secs (w, c)).2.2 := by
  refine ⟨checkTimeout_world dbg secs w c, ?_⟩
  have hg : (getC : M (World × Client) Client) (w, c) = (.ok c, (w, c)) := rfl
  unfold Idle
  cases ht : c.timeout with
  | none =>
    have : checkTimeout dbg secs (w, c) = (.ok (.ok .none), (w, c)) := by
      unfold checkTimeout Client.elapsedSecs
      rw [M.bind_ok hg, ht]; rfl
    rw [this]
    exact ⟨fun _ => ⟨rfl, rfl⟩, by simp, by simp⟩
  | some t =>
    by_cases hp : dbg = true ∧ secs < t
    · have : checkTimeout dbg secs (w, c) = (.error .panic, (w, c)) := by
        unfold checkTimeout Client.elapsedSecs
        rw [M.bind_ok hg, ht]; dsimp only; rw [if_pos hp]; rfl
      rw [this]
      have := UInt32.lt_iff_toNat_lt.mp hp.2
      refine ⟨by simp, ?_, by simp⟩
      intro t' h1 h2; injection h1 with h1; subst h1; omega
    · have hrun : checkTimeout dbg secs (w, c) = (if secs - t > timeoutSecs then
          (.ok (.error (.stateTimeout c.state)), (w, { c with state := .init, timeout := none }))
          else (.ok (.ok (.callAfter (timeoutSecs - (secs - t)))), (w, c))) := by
        unfold checkTimeout Client.elapsedSecs
        rw [M.bind_ok hg, ht]; dsimp only; rw [if_neg hp]
        rw [M.bind_ok (show (M.ofExcept (.ok (some (secs - t))) : M (World × Client) _) (w, c) = (.ok (some (secs - t)), (w, c)) from rfl)]
        dsimp only
        split <;> rfl
      rw [hrun]
      refine ⟨by simp, ?_, ?_⟩
      · intro t' h1 h2; injection h1 with h1; subst h1
        have hsub : (secs - t).toNat = secs.toNat - t.toNat := UInt32.toNat_sub_of_le _ _ (UInt32.le_iff_toNat_le.mpr h2)
        have h10 : timeoutSecs.toNat = 10 := rfl
        constructor
        · intro h
          have hn : ¬ secs - t > timeoutSecs := by rw [gt_iff_lt, UInt32.lt_iff_toNat_lt, hsub]; omega
          rw [if_neg hn]
          refine ⟨_, ?_, rfl, rfl⟩
          rw [UInt32.toNat_sub_of_le _ _ (by rw [UInt32.le_iff_toNat_le, hsub]; omega), hsub]; rfl
        · intro h
          rw [if_pos (by rw [gt_iff_lt, UInt32.lt_iff_toNat_lt, hsub]; omega)]
          exact ⟨rfl, rfl⟩
      · intro ev
        split
        · simp
        · intro h; simp at h; exact .inr ⟨_, h.symm⟩

/-- A packet of a type the client does not handle in the reader of a call of `process`. -/
theorem ignored_seen {dbg : Bool} {fuel : Nat} {secs : UInt32} {w : World} {c : Client} {base p : Nat}
    (type flags : Nat) (body : Bytes) (ht : type < 16) (hf : flags < 16) (hty : type ∉ [0, 2, 3, 9, 11])
    (hs : SeenPacket dbg fuel secs w c base p type flags body) :
    ∃ w', process dbg fuel worldBus secs (w, c) = checkTimeout dbg secs (w', c) ∧
      RxAt w'.chip c.sn.idx base (p + (Spec.Mqtt.packet type flags body).length) ∧ TxCalm c.sn.idx w w' ∧
      w.chip.received c.sn.idx <+: w'.chip.received c.sn.idx := by
  obtain ⟨rest, w2, h1, h2, h3, -⟩ := hs
  have hlen : body.length ≤ 32767 := by simp [Spec.Mqtt.packet] at h2; omega
  have hn : (UInt16.ofNat body.length).toNat = body.length := ofNat16_toNat (by omega)
  have hbd : recvBody c.state (header type flags body) =
      (RProg.doSeek (.current (toI16 (UInt16.ofNat body.length))) >>= fun _ => pure .ignored) := by
    have hcode := nibble_code ⟨type, ht⟩ ⟨flags, hf⟩
    dsimp only at hcode
    unfold recvBody header
    dsimp only
    generalize CtrlPkt.ofNibble (UInt8.ofNat (type * 16 + flags) >>> 4) = q at hcode
    subst hcode
    cases q <;> first | rfl | (exact absurd (by decide) hty)
  have hrun : (recvBody c.state (header type flags body)).run cursorOps
      ⟨Spec.Mqtt.packet type flags body ++ rest, 1 + (Spec.Mqtt.vbi body.length).length⟩ =
      (.ok .ignored, ⟨Spec.Mqtt.packet type flags body ++ rest, (Spec.Mqtt.packet type flags body).length⟩) := by
    rw [hbd, RProg.bind_ok (cur_seekCurrent (q := (Spec.Mqtt.packet type flags body).length)
      (by rw [toI16_toInt _ (by omega), hn]; simp [Spec.Mqtt.packet]; omega) (by simp))]
    rfl
  obtain ⟨r', g1, g2, g3⟩ := h3 _ _ hrun
  obtain ⟨w', e1, e2, e3, e4⟩ := finish_done c g2 g1
  have hr : process dbg fuel worldBus secs (w, c) = checkTimeout dbg secs (w', c) := by
    refine g3.trans ?_
    unfold recvFinish
    dsimp only
    rw [bind_assoc, M.bind_ok e1]
    rfl
  exact ⟨w', hr, e2, h1.toTxCalm.trans e3, h1.recvd.trans e4⟩

/-- C47 for a packet of a type the client does not handle: it is consumed, and nothing else happens. -/
theorem C47_ignored (dbg : Bool) (fuel : Nat) (secs : UInt32) (w : World) (c : Client) (p : Nat) (hc : c.state ≠ .init)
    (hq : Spec.Mqtt.quiet (Spec.Mqtt.interrupts w.tick.chip c.sn.toU8.toNat) = true) (hrx : RxState w.chip c.sn.toU8.toNat p)
    (type flags : Nat) (body : Bytes) (ht : type < 16) (hf : flags < 16) (hty : type ∉ [0, 2, 3, 9, 11])
    (hp : Spec.Mqtt.packet type flags body <+: (w.chip.received c.sn.toU8.toNat).drop p) :
    let k := c.sn.toU8.toNat
    let r := process dbg fuel worldBus secs (w, c)
    (r.1 = .error .panic ∧ dbg = true ∧ RxState r.2.1.chip k p) ∨
    (Idle secs c r.1 r.2.2 ∧ r.2.1.chip.sent = w.chip.sent ∧ RxState r.2.1.chip k (p + (Spec.Mqtt.packet type flags body).length)) := by
  change RxState w.chip c.sn.idx p at hrx
  intro k r
  obtain ⟨base, hb⟩ := hrx.at
  rcases packet_in dbg fuel secs w c hc hq base p hb type flags _ hp with ⟨w1, h1, h2, h3⟩ | hs
  · left
    change process dbg fuel worldBus secs (w, c) = _ at h1
    change (process dbg fuel worldBus secs (w, c)).1 = _ ∧ _ ∧ RxState (process dbg fuel worldBus secs (w, c)).2.1.chip _ _
    rw [h1]
    exact ⟨rfl, h3, (h2.rx _ _ hb).state⟩
  · right
    obtain ⟨w', g1, g2, g3, -⟩ := ignored_seen type flags body ht hf hty hs
    obtain ⟨i1, i2⟩ := checkTimeout_idle dbg secs w' c
    have hr : r = _ := g1
    rw [hr, i1]
    exact ⟨i2, g3.sent, g2.state⟩

theorem finish_received {w : World} {r : Ptrs} {cur : Cursor} {base p : Nat} (dbg : Bool) (secs : UInt32) (c : Client)
    (h : RdRel (w, r) cur base p p) (hs : r.sn = c.sn) (out : RecvOut) :
    w.chip.received c.sn.idx <+: ((recvFinish worldBus r out >>= after dbg secs) (w, c)).2.1.chip.received c.sn.idx := by
  obtain ⟨w', e1, -, -, e4⟩ := finish_done c h hs
  cases out with
  | pending =>
    change _ <+: (checkTimeout dbg secs (w, c)).2.1.chip.received c.sn.idx
    rw [checkTimeout_world]; exact List.prefix_refl _
  | bad e reset => cases reset <;> exact List.prefix_refl _
  | connAck code =>
    unfold recvFinish
    dsimp only
    rw [bind_assoc, M.bind_ok e1]
    cases hx : ConnectReasonCode.tryFrom code with
    | ok a => exact e4
    | error e =>
      dsimp only
      split <;> exact e4
  | subAck id code =>
    unfold recvFinish
    dsimp only
    rw [bind_assoc, M.bind_ok e1]; exact e4
  | unSubAck id code =>
    unfold recvFinish
    dsimp only
    rw [bind_assoc, M.bind_ok e1]; exact e4
  | publish info => exact List.prefix_refl _
  | ignored =>
    unfold recvFinish
    dsimp only
    rw [bind_assoc, M.bind_ok e1]
    change _ <+: (checkTimeout dbg secs (w', c)).2.1.chip.received c.sn.idx
    rw [checkTimeout_world]; exact e4

/-- Processing when the bytes received so far are part of a packet. -/
theorem incomplete_in (dbg : Bool) (fuel : Nat) (secs : UInt32) (w : World) (c : Client) (p : Nat) (hc : c.state ≠ .init)
    (hq : Spec.Mqtt.quiet (Spec.Mqtt.interrupts w.tick.chip c.sn.idx) = true) (hrx : RxState w.chip c.sn.idx p)
    (type flags : Nat) (body : Bytes) (hl : body.length ≤ 65535)
    (hp : ((process dbg fuel worldBus secs (w, c)).2.1.chip.received c.sn.idx).drop p <+: Spec.Mqtt.packet type flags body)
    (hne : ((process dbg fuel worldBus secs (w, c)).2.1.chip.received c.sn.idx).drop p ≠ Spec.Mqtt.packet type flags body) :
    ∃ w2, Calm c.sn.idx w w2 ∧ ((process dbg fuel worldBus secs (w, c) = (.error .panic, (w2, c)) ∧ dbg = true) ∨
      process dbg fuel worldBus secs (w, c) = checkTimeout dbg secs (w2, c)) := by
  obtain ⟨base, hb⟩ := hrx.at
  obtain ⟨w0, h0, hr⟩ := quiet_run dbg fuel secs w c hc hq
  rcases receive_run dbg secs w0 c base p (h0.rx _ _ hb) with ⟨w1, h1, h2, h3⟩ | ⟨w1, h1, h2, h3⟩ | ⟨D, w1, w2, h1, h2, h3, h4, h5, h6, h7, h8⟩
  · exact ⟨w1, h0.trans (h2.calm _), .inl ⟨hr.trans h1, h3⟩⟩
  · exact ⟨w1, h0.trans (h2.calm _), .inr (hr.trans h1)⟩
  · -- the reader saw a beginning of what is there at the end
    have hmono : ∀ x : World × Client, x.1.chip.received c.sn.idx <+: (process dbg fuel worldBus secs (w, c)).2.1.chip.received c.sn.idx →
        D <+: (x.1.chip.received c.sn.idx).drop p → ∃ cur, (recvProg dbg c.state).run cursorOps ⟨D, 0⟩ = (.ok .pending, cur) := by
      intro x hx hD
      have hpre := hD.trans (prefix_drop hx p)
      have hlt := strict_prefix_length hp hne
      have hle := hpre.length_le
      exact recv_incomplete dbg c.state _ (Spec.Mqtt.vbi body.length) body D (vbi_isVbi _)
        (by have := vbi_length_le body.length (by omega); omega) hl h4 (hpre.trans hp) (fun e => by rw [e] at hle; unfold Spec.Mqtt.packet at hlt; omega)
    refine ⟨w2, h0.trans ((h1.trans h2).calm _), .inr ?_⟩
    have hfin : w1.chip.received c.sn.idx <+: (process dbg fuel worldBus secs (w, c)).2.1.chip.received c.sn.idx := by
      have hw2 := (h2.calm c.sn.idx).recvd
      rw [hr]
      rcases hx : (recvProg dbg c.state).run cursorOps ⟨D, 0⟩ with ⟨e | out, cur⟩
      · rw [h8 e cur hx]; exact hw2
      · obtain ⟨r', g1, g2, g3⟩ := h7 out cur hx
        rw [g3]
        exact hw2.trans (finish_received dbg secs c g2 g1 out)
    obtain ⟨cur, hrun⟩ := hmono (w1, c) hfin h6
    obtain ⟨r', g1, g2, g3⟩ := h7 _ _ hrun
    rw [hr, g3]
    rfl

/-- C47, incomplete packets: if, at the end of the call of `process`, the bytes received and not consumed are a proper beginning of
a packet (perhaps empty), none of them was consumed, nothing was sent and there is no event. -/
theorem C47_incomplete (dbg : Bool) (fuel : Nat) (secs : UInt32) (w : World) (c : Client) (p : Nat) (hc : c.state ≠ .init)
    (hq : Spec.Mqtt.quiet (Spec.Mqtt.interrupts w.tick.chip c.sn.toU8.toNat) = true) (hrx : RxState w.chip c.sn.toU8.toNat p)
    (type flags : Nat) (body : Bytes) (hl : body.length ≤ 65535)
    (hp : ((process dbg fuel worldBus secs (w, c)).2.1.chip.received c.sn.toU8.toNat).drop p <+: Spec.Mqtt.packet type flags body)
    (hne : ((process dbg fuel worldBus secs (w, c)).2.1.chip.received c.sn.toU8.toNat).drop p ≠ Spec.Mqtt.packet type flags body) :
    let k := c.sn.toU8.toNat
    let r := process dbg fuel worldBus secs (w, c)
    RxState r.2.1.chip k p ∧ r.2.1.chip.sent = w.chip.sent ∧ ∀ ev, r.1 = .ok (.ok ev) → ev = .none ∨ ∃ n, ev = .callAfter n := by
  change RxState w.chip c.sn.idx p at hrx
  obtain ⟨base, hb⟩ := hrx.at
  obtain ⟨w2, h1, ⟨h2, -⟩ | h2⟩ := incomplete_in dbg fuel secs w c p hc hq hrx type flags body hl hp hne
  · rw [h2]
    exact ⟨(h1.rx _ _ hb).state, h1.sent, by simp⟩
  · obtain ⟨i1, i2⟩ := checkTimeout_idle dbg secs w2 c
    dsimp only
    rw [h2, i1]
    exact ⟨(h1.rx _ _ hb).state, h1.sent, i2.2.2⟩

/-- C73: while no complete packet was received, `process` reports nothing; if it waits for the connection or for CONNACK, it tells the
caller to call again when ten seconds have passed since it began to wait, and after that it resets the client and reports the timeout. -/
theorem C73_state_timeout (dbg : Bool) (fuel : Nat) (secs : UInt32) (w : World) (c : Client) (p : Nat) (hc : c.state ≠ .init)
    (hq : Spec.Mqtt.quiet (Spec.Mqtt.interrupts w.tick.chip c.sn.toU8.toNat) = true) (hrx : RxState w.chip c.sn.toU8.toNat p)
    (type flags : Nat) (body : Bytes) (hl : body.length ≤ 65535)
    (hp : ((process dbg fuel worldBus secs (w, c)).2.1.chip.received c.sn.toU8.toNat).drop p <+: Spec.Mqtt.packet type flags body)
    (hne : ((process dbg fuel worldBus secs (w, c)).2.1.chip.received c.sn.toU8.toNat).drop p ≠ Spec.Mqtt.packet type flags body) :
    let r := process dbg fuel worldBus secs (w, c)
    (r.1 = .error .panic ∧ r.2.2 = c ∧ dbg = true) ∨ Idle secs c r.1 r.2.2 := by
  change RxState w.chip c.sn.idx p at hrx
  obtain ⟨w2, h1, ⟨h2, h3⟩ | h2⟩ := incomplete_in dbg fuel secs w c p hc hq hrx type flags body hl hp hne
  · rw [h2]; exact .inl ⟨rfl, rfl, h3⟩
  · rw [h2]; exact .inr (checkTimeout_idle dbg secs w2 c).2

/-- C47, interrupts: when `process` finds DISCON, CON or TIMEOUT set it reports that (for CON it sends CONNECT) and consumes nothing. -/
theorem C47_interrupted (dbg : Bool) (fuel : Nat) (secs : UInt32) (w : World) (c : Client) (p : Nat) (hc : c.state ≠ .init)
    (hq : Spec.Mqtt.quiet (Spec.Mqtt.interrupts w.tick.chip c.sn.toU8.toNat) = false) (hrx : RxState w.chip c.sn.toU8.toNat p)
    (ht : TxState w.chip c.sn.toU8.toNat) (hid : ∀ i, c.clientId = some i → i.length ≤ 23) :
    let k := c.sn.toU8.toNat
    let ir := Spec.Mqtt.interrupts w.tick.chip k
    let r := process dbg fuel worldBus secs (w, c)
    RxState r.2.1.chip k p ∧
      r.1 = (if Spec.Mqtt.discon ir then .ok (.error .disconnect)
        else if Spec.Mqtt.con ir then (if r.2.1.chip.sent = w.chip.sent then .ok (.error .outOfMemory) else .ok (.ok (.callAfter 10)))
        else .ok (.error .tcpTimeout)) := by
  change RxState w.chip c.sn.idx p at hrx
  change TxState w.chip c.sn.idx at ht
  intro k ir r
  obtain ⟨base, hb⟩ := hrx.at
  obtain ⟨w1, hw, hp⟩ := process_run dbg fuel secs w c hc
  obtain ⟨i1, i2, i3⟩ := ir_bits (w.tick.chip.mem (4 * c.sn.idx + 1) 2)
  change r = _ at hp
  unfold onInterrupt at hp
  have hir : w.tick.chip.mem (4 * c.sn.idx + 1) 2 = ir := rfl
  rw [i1, i2, i3, hir] at hp
  change Spec.Mqtt.quiet ir = false at hq
  unfold Spec.Mqtt.quiet at hq
  cases hd : Spec.Mqtt.discon ir with
  | true =>
    rw [hd, if_pos rfl] at hp
    rw [if_pos rfl, hp]
    exact ⟨(hw.rx _ _ hb).state, rfl⟩
  | false =>
    rw [hd, if_neg (by simp)] at hp
    rw [if_neg (by simp)]
    cases hcn : Spec.Mqtt.con ir with
    | true =>
      rw [hcn, if_pos rfl] at hp
      rw [if_pos rfl]
      obtain ⟨w', m, h1, -, ⟨h2, -, h3⟩ | ⟨h2, h3, -⟩⟩ := sendConnect_run secs w1 c (hw.tx ht) hid
      · rw [M.bind_ok h2] at hp
        rw [hp]
        refine ⟨(h1.rx _ _ (hw.rx _ _ hb)).state, ?_⟩
        rw [if_neg]
        · rfl
        · change w'.chip.sent ≠ _
          rw [h3, hw.sent]; simp
      · rw [M.bind_ok h2] at hp
        rw [hp]
        refine ⟨(h1.rx _ _ (hw.rx _ _ hb)).state, ?_⟩
        exact (if_pos (show w'.chip.sent = _ from h3.trans hw.sent)).symm
    | false =>
      rw [hd, hcn] at hq
      simp at hq
      rw [hcn, if_neg (by simp), hq, if_pos rfl] at hp
      rw [if_neg (by simp), hp]
      exact ⟨(hw.rx _ _ hb).state, rfl⟩

/-! ## C48 -/

theorem readPart_run (D part tail : Bytes) (k n pos : Nat) (idx len : UInt16) (hk : idx.toNat = k) (hl : len.toNat = part.length)
    (hD : D.drop k = part ++ tail) (hkl : k ≤ D.length) :
    (RProg.doSeek (.start idx) >>= fun _ => RProg.doReadExact (min16 (lenU16 n) len).toNat).run cursorOps ⟨D, pos⟩ =
      (.ok (part.take n), ⟨D, k + min n part.length⟩) := by
  have hm : (min16 (lenU16 n) len).toNat = min n part.length := by
    rw [min16_toNat, lenU16_toNat, hl]
    have := len.toNat_lt
    omega
  have hlen : D.length - k = part.length + tail.length := by rw [← List.length_drop, hD]; simp
  rw [RProg.bind_ok (cur_seekStart (by rw [hk]; exact hkl)), hk, hm, cur_readExact (by omega), hD, List.take_append_of_le_length (by omega)]
  congr 2
  rcases Nat.le_total n part.length with h | h
  · rw [Nat.min_eq_left h]
  · rw [Nat.min_eq_right h, List.take_of_length_le (Nat.le_refl _), List.take_of_length_le h]

/-- A PUBLISH in the reader of a call of `process`, as the client takes it apart: `pl` is the byte after the topic. -/
theorem publish_seen_as {dbg : Bool} {fuel : Nat} {secs : UInt32} {w : World} {c : Client} {base p : Nat}
    (topic payload props : Bytes) (pl : UInt8) (flags : Nat) (hf : flags < 16) (hpl : pl.toNat = props.length)
    (hs : SeenPacket dbg fuel secs w c base p 3 flags (Spec.Mqtt.str topic ++ (pl :: props) ++ payload)) :
    ∃ rd w2, process dbg fuel worldBus secs (w, c) = (.ok (.ok (.publish rd)), (w2, c)) ∧ Calm c.sn.idx w w2 ∧
      rd.info.topicLen.toNat = topic.length ∧ rd.info.payloadLen.toNat = payload.length ∧
      ∀ ops : List PubOp,
        let u := useReader ops rd w2
        u.1 = ops.flatMap (PubOp.expected topic payload) ∧ Calm c.sn.idx w u.2.2 ∧
        ∃ w', publishDone dbg worldBus u.2.1 u.2.2 = (.ok (.ok ()), w') ∧
          RxAt w'.chip c.sn.idx base (p + (Spec.Mqtt.packet 3 flags (Spec.Mqtt.str topic ++ (pl :: props) ++ payload)).length) ∧ TxCalm c.sn.idx w w' ∧
          w.chip.received c.sn.idx <+: w'.chip.received c.sn.idx := by
  generalize hbody : Spec.Mqtt.str topic ++ (pl :: props) ++ payload = body at *
  obtain ⟨rest, w2, h1, h2, h3, -⟩ := hs
  have hbl : body.length = 2 + topic.length + 1 + props.length + payload.length := by
    rw [← hbody]; simp [Spec.Mqtt.str, Spec.Mqtt.u16]; omega
  have hpkl : (Spec.Mqtt.packet 3 flags body).length = 1 + (Spec.Mqtt.vbi body.length).length + body.length := by
    simp [Spec.Mqtt.packet]; omega
  have hsmall : (Spec.Mqtt.packet 3 flags body).length + rest.length ≤ 32768 := by
    rw [List.length_append] at h2; exact h2
  have hD : (Spec.Mqtt.packet 3 flags body ++ rest).drop (1 + (Spec.Mqtt.vbi body.length).length) =
      Spec.Mqtt.str topic ++ pl :: (props ++ (payload ++ rest)) :=
    drop_at (pre := UInt8.ofNat (3 * 16 + flags) :: Spec.Mqtt.vbi body.length) (by rw [← hbody]; simp [Spec.Mqtt.packet]) (by simp; omega)
  obtain ⟨i, hrun, j1, j2, j3, j4⟩ := body_publish (Spec.Mqtt.packet 3 flags body ++ rest) (1 + (Spec.Mqtt.vbi body.length).length)
    topic props payload rest (pl) (UInt16.ofNat body.length) hpl.symm h2
    (by rw [ofNat16_toNat (by omega)]; exact hbl) hD
  have hbd : recvBody c.state (header 3 flags body) = recvPublish (UInt16.ofNat body.length) := by
    have hnib := nibble_eq 3 flags (by omega) hf .publish rfl
    unfold recvBody header
    dsimp only
    rw [hnib]
  rw [← hbd] at hrun
  obtain ⟨r', g1, g2, g3⟩ := h3 _ _ hrun
  have hr : process dbg fuel worldBus secs (w, c) = (.ok (.ok (.publish ⟨r', i⟩)), (w2, c)) := g3
  refine ⟨⟨r', i⟩, w2, hr, h1, j1, j3, ?_⟩
  generalize hDD : Spec.Mqtt.packet 3 flags body ++ rest = D at *
  have hT : D.drop (1 + (Spec.Mqtt.vbi body.length).length + 2) = topic ++ (pl :: (props ++ (payload ++ rest))) := by
    rw [← List.drop_drop, hD]
    exact drop_at (pre := Spec.Mqtt.u16 topic.length) (by simp [Spec.Mqtt.str]) rfl
  have hP : D.drop (1 + (Spec.Mqtt.vbi body.length).length + 2 + topic.length + 1 + props.length) = payload ++ rest := by
    rw [Nat.add_assoc, Nat.add_assoc, ← List.drop_drop, hT]
    exact drop_at (pre := topic ++ pl :: props) (by simp) (by simp; omega)
  have hDl : D.length = (Spec.Mqtt.packet 3 flags body).length + rest.length := by rw [← hDD]; simp
  -- reading
  have huse : ∀ (ops : List PubOp) (rr : Ptrs) (ww : World) (pos : Nat), rr.sn = c.sn → RdRel (ww, rr) ⟨D, pos⟩ base p p → Calm c.sn.idx w ww →
      (useReader ops ⟨rr, i⟩ ww).1 = ops.flatMap (PubOp.expected topic payload) ∧
      ∃ rr' ww' pos', (useReader ops ⟨rr, i⟩ ww).2 = (⟨rr', i⟩, ww') ∧ rr'.sn = c.sn ∧ RdRel (ww', rr') ⟨D, pos'⟩ base p p ∧ Calm c.sn.idx w ww' := by
    intro ops
    induction ops with
    | nil => intro rr ww pos hs hrel hcalm; exact ⟨rfl, rr, ww, pos, rfl, hs, hrel, hcalm⟩
    | cons op ops ih =>
      intro rr ww pos hs hrel hcalm
      have hread : ∀ (part tail : Bytes) (k n : Nat) (idx len : UInt16), idx.toNat = k → len.toNat = part.length → D.drop k = part ++ tail →
          k ≤ D.length → ∃ rr' ww' pos', onPublish worldBus ⟨rr, i⟩ (RProg.doSeek (.start idx) >>= fun _ =>
            RProg.doReadExact (min16 (lenU16 n) len).toNat) ww = (.ok (.ok (part.take n, ⟨rr', i⟩)), ww') ∧ rr'.sn = c.sn ∧
            RdRel (ww', rr') ⟨D, pos'⟩ base p p ∧ Calm c.sn.idx w ww' := by
        intro part tail k n idx len hk hl hd hkl
        have hrun := readPart_run D part tail k n pos idx len hk hl hd hkl
        obtain ⟨ww', rr', k1, k2, k3, k4⟩ := onTcpReader_run (RProg.doSeek (.start idx) >>= fun _ => RProg.doReadExact (min16 (lenU16 n) len).toNat) hrel
        rw [hrun] at k3 k4
        refine ⟨rr', ww', _, ?_, k2.trans hs, k3, hcalm.trans (k1.calm _)⟩
        unfold onPublish mapW5500
        dsimp only
        rw [k4]; rfl
      cases op with
      | wait => exact ih rr ww.tick pos hs hrel.tick (hcalm.trans (calm_tick _ ww))
      | topic n =>
        obtain ⟨rr', ww', pos', k1, k2, k3, k4⟩ := hread topic _ _ n i.topicIdx i.topicLen j2 j1 hT (by omega)
        change onPublish worldBus ⟨rr, i⟩ (readTopicProg i n) ww = _ at k1
        have hu : useReader (.topic n :: ops) ⟨rr, i⟩ ww = (.ok (.ok (topic.take n)) :: (useReader ops ⟨rr', i⟩ ww').1, (useReader ops ⟨rr', i⟩ ww').2) := by
          rw [useReader, PubOp.run, k1]; rfl
        rw [hu]
        obtain ⟨u1, u2⟩ := ih rr' ww' pos' k2 k3 k4
        exact ⟨by rw [List.flatMap_cons, u1]; rfl, u2⟩
      | payload n =>
        obtain ⟨rr', ww', pos', k1, k2, k3, k4⟩ := hread payload _ _ n i.payloadIdx i.payloadLen j4 j3 hP (by omega)
        change onPublish worldBus ⟨rr, i⟩ (readPayloadProg i n) ww = _ at k1
        have hu : useReader (.payload n :: ops) ⟨rr, i⟩ ww = (.ok (.ok (payload.take n)) :: (useReader ops ⟨rr', i⟩ ww').1, (useReader ops ⟨rr', i⟩ ww').2) := by
          rw [useReader, PubOp.run, k1]; rfl
        rw [hu]
        obtain ⟨u1, u2⟩ := ih rr' ww' pos' k2 k3 k4
        exact ⟨by rw [List.flatMap_cons, u1]; rfl, u2⟩
  intro ops u
  obtain ⟨u1, rr', ww', pos', u2, u3, u4, u5⟩ := huse ops r' w2 _ g1 g2 h1
  have hu : u = (u.1, (⟨rr', i⟩, ww')) := Prod.ext rfl u2
  rw [hu]
  refine ⟨u1, u5, ?_⟩
  have hend : (i.payloadIdx + i.payloadLen).toNat = (Spec.Mqtt.packet 3 flags body).length := by
    rw [UInt16.toNat_add, j3, j4]; omega
  have hdone : (publishDoneProg dbg i).run cursorOps ⟨D, pos'⟩ = (.ok (), ⟨D, (Spec.Mqtt.packet 3 flags body).length⟩) := by
    unfold publishDoneProg
    rw [if_neg (by rw [j3, j4]; omega), cur_seekStart (by rw [hend]; omega), hend]
  obtain ⟨ww2, rr2, k1, k2, k3, k4⟩ := onTcpReader_run (publishDoneProg dbg i) u4
  rw [hdone] at k3 k4
  obtain ⟨w', e1, e2, e3, e4⟩ := tcpReaderDone_run k3
  have hsn : rr2.sn = c.sn := k2.trans u3
  rw [hsn] at e2 e3 e4
  refine ⟨w', ?_, e2, (u5.trans (k1.calm _)).toTxCalm.trans e3, (u5.trans (k1.calm _)).recvd.trans e4⟩
  have ho : onPublish worldBus ⟨rr', i⟩ (publishDoneProg dbg i) ww' = (.ok (.ok ((), ⟨rr2, i⟩)), ww2) := by
    unfold onPublish mapW5500
    dsimp only
    rw [k4]; rfl
  unfold publishDone
  rw [M.bind_ok ho]
  dsimp only
  rw [M.bind_ok e1]
  rfl

/-- A PUBLISH in the reader of a call of `process`. -/
theorem publish_seen {dbg : Bool} {fuel : Nat} {secs : UInt32} {w : World} {c : Client} {base p : Nat}
    (topic payload props : Bytes) (flags : Nat) (hf : flags < 16) (hl : props.length < 128)
    (hs : SeenPacket dbg fuel secs w c base p 3 flags (Spec.Mqtt.str topic ++ (Spec.Mqtt.vbi props.length ++ props) ++ payload)) :
    ∃ rd w2, process dbg fuel worldBus secs (w, c) = (.ok (.ok (.publish rd)), (w2, c)) ∧ Calm c.sn.idx w w2 ∧
      rd.info.topicLen.toNat = topic.length ∧ rd.info.payloadLen.toNat = payload.length ∧
      ∀ ops : List PubOp,
        let u := useReader ops rd w2
        u.1 = ops.flatMap (PubOp.expected topic payload) ∧ Calm c.sn.idx w u.2.2 ∧
        ∃ w', publishDone dbg worldBus u.2.1 u.2.2 = (.ok (.ok ()), w') ∧
          RxAt w'.chip c.sn.idx base (p + (Spec.Mqtt.publish topic payload props flags).length) ∧ TxCalm c.sn.idx w w' ∧
          w.chip.received c.sn.idx <+: w'.chip.received c.sn.idx := by
  have hv : Spec.Mqtt.vbi props.length = [UInt8.ofNat props.length] := by rw [Spec.Mqtt.vbi.eq_1, if_pos (by omega)]
  unfold Spec.Mqtt.publish
  rw [hv] at hs ⊢
  exact publish_seen_as topic payload props (UInt8.ofNat props.length) flags hf (by simp; omega) hs

theorem vbi_first (n : Nat) (h : 128 ≤ n) :
    ∃ x t, Spec.Mqtt.vbi n = x :: t ∧ x.toNat = n % 128 + 128 ∧ t ≠ [] := by
  refine ⟨_, _, by rw [Spec.Mqtt.vbi.eq_1, if_neg (by omega)], ?_, fun h => isVbi_ne (vbi_isVbi (n / 128)) (by rw [h]; rfl)⟩
  rw [UInt8.toNat_ofNat']; omega

/-- C48: when a PUBLISH packet with QoS 0 and fewer than 128 bytes of properties was received, `process` returns an event whose reader
gives its topic and payload (as much as fits into the buffer), however often and in whatever order they are read and whatever arrives
meanwhile; nothing is consumed until `done`, which consumes exactly this packet (C47).  Missing: 128 or more bytes of properties, see
`C48_props_not`. -/
theorem C48_publish_partial (dbg : Bool) (fuel : Nat) (secs : UInt32) (w : World) (c : Client) (p : Nat) (hc : c.state ≠ .init)
    (hq : Spec.Mqtt.quiet (Spec.Mqtt.interrupts w.tick.chip c.sn.toU8.toNat) = true) (hrx : RxState w.chip c.sn.toU8.toNat p)
    (topic payload props : Bytes) (flags : Nat) (hf : flags < 16) (hl : props.length < 128)
    (hp : Spec.Mqtt.publish topic payload props flags <+: (w.chip.received c.sn.toU8.toNat).drop p) :
    let k := c.sn.toU8.toNat
    let r := process dbg fuel worldBus secs (w, c)
    (r.1 = .error .panic ∧ dbg = true ∧ RxState r.2.1.chip k p) ∨
    ∃ rd, r.1 = .ok (.ok (.publish rd)) ∧ r.2.2 = c ∧ r.2.1.chip.sent = w.chip.sent ∧ RxState r.2.1.chip k p ∧
      rd.info.topicLen.toNat = topic.length ∧ rd.info.payloadLen.toNat = payload.length ∧
      ∀ ops : List PubOp,
        let u := useReader ops rd r.2.1
        u.1 = ops.flatMap (PubOp.expected topic payload) ∧ RxState u.2.2.chip k p ∧
        ∃ w', publishDone dbg worldBus u.2.1 u.2.2 = (.ok (.ok ()), w') ∧
          RxState w'.chip k (p + (Spec.Mqtt.publish topic payload props flags).length) ∧ w'.chip.sent = w.chip.sent := by
  change RxState w.chip c.sn.idx p at hrx
  intro k r
  obtain ⟨base, hb⟩ := hrx.at
  rcases packet_in dbg fuel secs w c hc hq base p hb 3 flags _ hp with ⟨w1, h1, h2, h3⟩ | hs
  · left
    change process dbg fuel worldBus secs (w, c) = _ at h1
    change (process dbg fuel worldBus secs (w, c)).1 = _ ∧ _ ∧ RxState (process dbg fuel worldBus secs (w, c)).2.1.chip _ _
    rw [h1]
    exact ⟨rfl, h3, (h2.rx _ _ hb).state⟩
  · right
    obtain ⟨rd, w2, g1, g2, g3, g4, g5⟩ := publish_seen topic payload props flags hf hl hs
    have hr : r = _ := g1
    rw [hr]
    refine ⟨rd, rfl, rfl, g2.sent, (g2.rx _ _ hb).state, g3, g4, fun ops => ?_⟩
    obtain ⟨u1, u2, w', u3, u4, u5, -⟩ := g5 ops
    exact ⟨u1, (u2.rx _ _ hb).state, w', u3, u4.state, u5.sent⟩

/-- The negation of C48 for a PUBLISH with 128 bytes of properties or more: the client takes the first byte of their length for all of
it, so that the payload its reader gives begins with at least one byte that belongs to the properties, and is longer than the message. -/
theorem C48_props_not (fuel : Nat) (secs : UInt32) (w : World) (c : Client) (p : Nat) (hc : c.state ≠ .init)
    (hq : Spec.Mqtt.quiet (Spec.Mqtt.interrupts w.tick.chip c.sn.toU8.toNat) = true) (hrx : RxState w.chip c.sn.toU8.toNat p)
    (topic payload props : Bytes) (flags : Nat) (hf : flags < 16) (hl : 128 ≤ props.length)
    (hp : Spec.Mqtt.publish topic payload props flags <+: (w.chip.received c.sn.toU8.toNat).drop p) :
    let r := process false fuel worldBus secs (w, c)
    ∃ rd extra, r.1 = .ok (.ok (.publish rd)) ∧ extra ≠ [] ∧ extra <:+ props ∧ rd.info.payloadLen.toNat = extra.length + payload.length ∧
      ∀ n, (useReader [.topic n, .payload n] rd r.2.1).1 = [.ok (.ok (topic.take n)), .ok (.ok ((extra ++ payload).take n))] := by
  change RxState w.chip c.sn.idx p at hrx
  intro r
  obtain ⟨base, hb⟩ := hrx.at
  rcases packet_in false fuel secs w c hc hq base p hb 3 flags _ hp with ⟨w1, h1, h2, h3⟩ | hs
  · cases h3
  · obtain ⟨x, t, hv, hx, ht⟩ := vbi_first props.length hl
    have htl := List.length_pos_iff.mpr ht
    have hsplit : Spec.Mqtt.str topic ++ (Spec.Mqtt.vbi props.length ++ props) ++ payload =
        Spec.Mqtt.str topic ++ (x :: (t ++ props).take x.toNat) ++ ((t ++ props).drop x.toNat ++ payload) := by
      have := List.take_append_drop x.toNat (t ++ props)
      rw [hv]
      simp only [List.cons_append, List.append_assoc]
      rw [← List.append_assoc (List.take _ _), this, List.append_assoc]
    have hxl : x.toNat ≤ props.length := by omega
    have hsmall : props.length ≤ 32768 := by
      obtain ⟨rest, w2, -, h2, -⟩ := hs
      simp [Spec.Mqtt.packet] at h2; omega
    have ht3 : t.length ≤ 2 := by
      have := vbi_length_le props.length (by omega)
      rw [hv] at this; simp at this; omega
    rw [hsplit] at hs
    obtain ⟨rd, w2, g1, g2, g3, g4, g5⟩ := publish_seen_as topic _ _ x flags hf (by simp; omega) hs
    have hr : r = _ := g1
    rw [hr]
    have hex : (t ++ props).drop x.toNat = props.drop (x.toNat - t.length) := by
      rw [List.drop_append, List.drop_of_length_le (by omega), List.nil_append]
    refine ⟨rd, (t ++ props).drop x.toNat, rfl, fun h => ?_, by rw [hex]; exact List.drop_suffix _ _, by rw [g4, List.length_append], fun n => ?_⟩
    · have := congrArg List.length h
      simp at this; omega
    · rw [(g5 [.topic n, .payload n]).1]; rfl

/-! ## C50, C70 -/

/-- The negation of C50: a CONNACK received when none is expected makes `process` return a protocol error, but the client is not reset
and the packet stays in the queue, so that every further call does the same. -/
theorem C50_not (fuel : Nat) (secs : UInt32) (w : World) (c : Client) (p : Nat) (hc : c.state = .ready)
    (hq : Spec.Mqtt.quiet (Spec.Mqtt.interrupts w.tick.chip c.sn.toU8.toNat) = true) (hrx : RxState w.chip c.sn.toU8.toNat p)
    (sp code : UInt8) (props : Bytes) (hp : Spec.Mqtt.connack sp code props <+: (w.chip.received c.sn.toU8.toNat).drop p) :
    let k := c.sn.toU8.toNat
    let r := process false fuel worldBus secs (w, c)
    r.1 = .ok (.error .protocol) ∧ r.2.2 = c ∧ RxState r.2.1.chip k p ∧
      Spec.Mqtt.connack sp code props <+: (r.2.1.chip.received k).drop p := by
  change RxState w.chip c.sn.idx p at hrx
  intro k r
  obtain ⟨base, hb⟩ := hrx.at
  rcases packet_in false fuel secs w c (by rw [hc]; decide) hq base p hb 2 0 _ hp with ⟨w1, h1, h2, h3⟩ | ⟨rest, w2, h1, h2, h3, -⟩
  · cases h3
  · have hnib : CtrlPkt.ofNibble (UInt8.ofNat (2 * 16 + 0) >>> 4) = .connack := by decide
    have hbd : recvBody c.state (header 2 0 ([sp, code] ++ (Spec.Mqtt.vbi props.length ++ props))) = pure (.bad .protocol false) := by
      unfold recvBody header
      dsimp only
      rw [hnib, hc]
      rfl
    obtain ⟨r', g1, g2, g3⟩ := h3 (.bad .protocol false) _ (by rw [hbd]; rfl)
    have hr : r = (.ok (.error .protocol), (w2, c)) := g3
    rw [hr]
    exact ⟨rfl, rfl, (h1.rx _ _ hb).state, hp.trans (prefix_drop h1.recvd p)⟩

/-- The negation of C70: a remaining length with four continuation bits, which is not allowed, is taken for an incomplete packet: the
client reports nothing and consumes nothing, however much is received. -/
theorem C70_not (fuel : Nat) (secs : UInt32) (w : World) (c : Client) (p : Nat) (hc : c.state = .ready) (hto : c.timeout = none)
    (hq : Spec.Mqtt.quiet (Spec.Mqtt.interrupts w.tick.chip c.sn.toU8.toNat) = true) (hrx : RxState w.chip c.sn.toU8.toNat p)
    (b0 b1 b2 b3 b4 : UInt8) (h1 : 128 ≤ b1.toNat) (h2 : 128 ≤ b2.toNat) (h3 : 128 ≤ b3.toNat) (h4 : 128 ≤ b4.toNat)
    (hp : [b0, b1, b2, b3, b4] <+: (w.chip.received c.sn.toU8.toNat).drop p) :
    let k := c.sn.toU8.toNat
    let r := process false fuel worldBus secs (w, c)
    r.1 = .ok (.ok .none) ∧ r.2.2 = c ∧ RxState r.2.1.chip k p := by
  change RxState w.chip c.sn.idx p at hrx
  intro k r
  obtain ⟨base, hb⟩ := hrx.at
  obtain ⟨w0, h0, hr⟩ := quiet_run false fuel secs w c (by rw [hc]; decide) hq
  have hp0 := hp.trans (prefix_drop h0.recvd p)
  rcases receive_run false secs w0 c base p (h0.rx _ _ hb) with ⟨w1, -, -, k3⟩ | ⟨w1, k1, k2, k3⟩ | ⟨D, w1, w2, k1, k2, k3, k4, k5, k6, k7, -⟩
  · cases k3
  · exfalso
    have hl := (hp0.trans (prefix_drop (k2.calm c.sn.idx).recvd p)).length_le
    simp at hl
    omega
  · obtain ⟨rest, hrest⟩ := hp0.trans k5
    obtain ⟨cur, hm⟩ := recv_malformed false c.state b0 b1 b2 b3 b4 rest h1 h2 h3 h4
    change (recvProg false c.state).run cursorOps ⟨[b0, b1, b2, b3, b4] ++ rest, 0⟩ = _ at hm
    rw [hrest] at hm
    obtain ⟨r', g1, g2, g3⟩ := k7 _ _ hm
    have hr' : r = checkTimeout false secs (w2, c) := hr.trans (g3.trans rfl)
    obtain ⟨i1, i2⟩ := checkTimeout_idle false secs w2 c
    obtain ⟨a1, a2⟩ := i2.1 hto
    rw [hr']
    refine ⟨a1, a2, ?_⟩
    rw [i1]
    exact (h0.rx _ _ hb |> fun h => ((k1.trans k2).calm c.sn.idx).rx _ _ h).state

/-- C70 for the other malformed packets: a remaining length of 65536 or more, or the reserved packet type 0, is reported as a decoding
error, the client is reset and nothing is consumed.  Missing: see `C70_not`. -/
theorem C70_partial (dbg : Bool) (fuel : Nat) (secs : UInt32) (w : World) (c : Client) (p : Nat) (hc : c.state ≠ .init)
    (hq : Spec.Mqtt.quiet (Spec.Mqtt.interrupts w.tick.chip c.sn.toU8.toNat) = true) (hrx : RxState w.chip c.sn.toU8.toNat p)
    (bs : Bytes) (hp : bs <+: (w.chip.received c.sn.toU8.toNat).drop p)
    (hbad : (∃ b0 v n, bs = b0 :: v ∧ Spec.Mqtt.IsVbi v n ∧ v.length ≤ 4 ∧ 65535 < n) ∨
      (∃ flags body, flags < 16 ∧ bs = Spec.Mqtt.packet 0 flags body)) :
    let k := c.sn.toU8.toNat
    let r := process dbg fuel worldBus secs (w, c)
    RxState r.2.1.chip k p ∧
      ((r.1 = .error .panic ∧ dbg = true) ∨ (r.1 = .ok (.error .decode) ∧ r.2.2 = { c with state := .init, timeout := none })) := by
  change RxState w.chip c.sn.idx p at hrx
  intro k r
  obtain ⟨base, hb⟩ := hrx.at
  rcases hbad with ⟨b0, v, n, rfl, hv, hl, hn⟩ | ⟨flags, body, hf, rfl⟩
  · obtain ⟨w0, h0, hr⟩ := quiet_run dbg fuel secs w c hc hq
    have hp0 := hp.trans (prefix_drop h0.recvd p)
    rcases receive_run dbg secs w0 c base p (h0.rx _ _ hb) with ⟨w1, k1, k2, k3⟩ | ⟨w1, k1, k2, k3⟩ | ⟨D, w1, w2, k1, k2, k3, k4, k5, k6, k7, -⟩
    · have hr' : r = _ := hr.trans k1
      rw [hr']
      exact ⟨((h0.trans (k2.calm _)).rx _ _ hb).state, .inl ⟨rfl, k3⟩⟩
    · exfalso
      have hl := (hp0.trans (prefix_drop (k2.calm c.sn.idx).recvd p)).length_le
      simp at hl
      omega
    · obtain ⟨rest, hrest⟩ := hp0.trans k5
      obtain ⟨cur, hm⟩ := recv_long dbg c.state b0 v rest n hv hl hn
      rw [← List.cons_append, hrest] at hm
      obtain ⟨r', g1, g2, g3⟩ := k7 _ _ hm
      have hr' : r = (.ok (.error .decode), (w2, { c with state := .init, timeout := none })) := hr.trans (g3.trans rfl)
      rw [hr']
      exact ⟨((h0.trans ((k1.trans k2).calm _)).rx _ _ hb).state, .inr ⟨rfl, rfl⟩⟩
  · rcases packet_in dbg fuel secs w c hc hq base p hb 0 flags _ hp with ⟨w1, h1, h2, h3⟩ | ⟨rest, w2, h1, h2, h3, -⟩
    · change r = _ at h1
      rw [h1]
      exact ⟨(h2.rx _ _ hb).state, .inl ⟨rfl, h3⟩⟩
    · have hbd : recvBody c.state (header 0 flags body) = pure (.bad .decode true) := by
        have hnib := nibble_eq 0 flags (by omega) hf .reserved rfl
        unfold recvBody header
        dsimp only
        rw [hnib]
      obtain ⟨r', g1, g2, g3⟩ := h3 (.bad .decode true) _ (by rw [hbd]; rfl)
      have hr : r = (.ok (.error .decode), (w2, { c with state := .init, timeout := none })) := g3
      rw [hr]
      exact ⟨(h1.rx _ _ hb).state, .inr ⟨rfl, rfl⟩⟩

/-! ## The hypotheses are met -/

/-- The socket of `tcpWorld` with unread bytes. -/
theorem tcpWorld_rx (ir : UInt8) (data : Bytes) (h : RxState (tcpWorld 0 data).chip 3 0) : RxState (tcpWorld ir data).chip 3 0 :=
  ⟨h.1, h.2, h.3, h.4, h.5, h.6⟩

theorem packet_small (type flags : Nat) (body : Bytes) (h : body.length < 128) :
    Spec.Mqtt.packet type flags body = [UInt8.ofNat (type * 16 + flags), UInt8.ofNat body.length] ++ body := by
  unfold Spec.Mqtt.packet
  rw [vbi_small h]; rfl

theorem connack_small (sp code : UInt8) (props : Bytes) (h : props.length < 125) :
    Spec.Mqtt.connack sp code props = [0x20, UInt8.ofNat (props.length + 3), sp, code, UInt8.ofNat props.length] ++ props := by
  unfold Spec.Mqtt.connack
  rw [vbi_small (by omega), packet_small _ _ _ (by simp; omega)]
  simp [UInt8.add_assoc]

theorem ack_small (type : Nat) (id : Nat) (props codes : Bytes) (h : props.length + codes.length < 125) :
    Spec.Mqtt.ack type id props codes = [UInt8.ofNat (type * 16), UInt8.ofNat (props.length + codes.length + 3), UInt8.ofNat (id / 256), UInt8.ofNat id,
      UInt8.ofNat props.length] ++ props ++ codes := by
  unfold Spec.Mqtt.ack Spec.Mqtt.u16
  rw [vbi_small (by omega), packet_small _ _ _ (by simp; omega)]
  simp [Nat.add_comm, Nat.add_left_comm]

/-- A CONNACK of code 0 or 0x87 with two property bytes, and another packet after it. -/
example : Spec.Mqtt.connack 0 0x87 [1, 2] = [0x20, 5, 0, 0x87, 2, 1, 2] := connack_small _ _ _ (by decide)
example : RxState (tcpWorld 0 [0x20, 5, 0, 0x87, 2, 1, 2, 0x30]).chip 3 0 ∧
    Spec.Mqtt.quiet (Spec.Mqtt.interrupts (tcpWorld 0 [0x20, 5, 0, 0x87, 2, 1, 2, 0x30]).tick.chip 3) = true ∧
    [0x20, 5, 0, 0x87, 2, 1, 2] <+: ((tcpWorld 0 [0x20, 5, 0, 0x87, 2, 1, 2, 0x30]).chip.received 3).drop 0 :=
  ⟨⟨by decide +kernel, by decide +kernel, by decide +kernel, by decide +kernel, by decide +kernel, by decide +kernel⟩, by decide +kernel,
    ⟨[0x30], rfl⟩⟩
example : (process true 1 worldBus 5 (tcpWorld 0 [0x20, 5, 0, 0x87, 2, 1, 2, 0x30], tcpClient .waitConAck)).1 =
    .ok (.error (.connAck .notAuthorized)) := by decide +kernel
example : (process true 1 worldBus 5 (tcpWorld 0 [0x20, 5, 0, 0, 2, 1, 2, 0x30], tcpClient .waitConAck)).1 = .ok (.ok .connAck) ∧
    (process true 1 worldBus 5 (tcpWorld 0 [0x20, 5, 0, 0, 2, 1, 2, 0x30], tcpClient .waitConAck)).2.1.chip.unread 3 = [0x30] := by decide +kernel

/-- A SUBACK and an UNSUBACK with a property byte. -/
example : Spec.Mqtt.ack 9 258 [7] [SubAckReasonCode.notAuthorized.code] = [0x90, 5, 1, 2, 1, 7, 0x87] := ack_small 9 258 [7] _ (by decide)
example : (process true 1 worldBus 5 (tcpWorld 0 [0x90, 5, 1, 2, 1, 7, 0x87, 0x30], tcpClient .ready)).1 = .ok (.ok (.subAck 258 .notAuthorized)) ∧
    (process true 1 worldBus 5 (tcpWorld 0 [0x90, 5, 1, 2, 1, 7, 0x87, 0x30], tcpClient .ready)).2.1.chip.unread 3 = [0x30] ∧
    (process true 1 worldBus 5 (tcpWorld 0 [0xB0, 5, 1, 2, 1, 7, 0x11, 0x30], tcpClient .ready)).1 =
      .ok (.ok (.unSubAck 258 .noSubscriptionExisted)) := by decide +kernel

/-- A packet that is ignored (PINGRESP), an incomplete one, and one that is malformed. -/
example : (process true 1 worldBus 5 (tcpWorld 0 [0xD0, 0, 0x30], tcpClient .ready)).1 = .ok (.ok .none) ∧
    (process true 1 worldBus 5 (tcpWorld 0 [0xD0, 0, 0x30], tcpClient .ready)).2.1.chip.unread 3 = [0x30] ∧
    (process true 1 worldBus 5 (tcpWorld 0 [0x90, 5, 1, 2, 1], tcpClient .ready)).1 = .ok (.ok .none) ∧
    (process true 1 worldBus 5 (tcpWorld 0 [0x90, 5, 1, 2, 1], tcpClient .ready)).2.1.chip.unread 3 = [0x90, 5, 1, 2, 1] ∧
    (process false 1 worldBus 5 (tcpWorld 0 [0x90, 0xFF, 0xFF, 0xFF, 0xFF, 1], tcpClient .ready)).1 = .ok (.ok .none) ∧
    (process false 1 worldBus 5 (tcpWorld 0 [0x90, 0xFF, 0xFF, 0xFF, 1], tcpClient .ready)).1 = .ok (.error .decode) := by decide +kernel

/-- The state times out after ten seconds. -/
example : (process true 1 worldBus 15 (tcpWorld 0 [], { tcpClient .waitConAck with timeout := some 5 })).1 = .ok (.ok (.callAfter 0)) ∧
    (process true 1 worldBus 16 (tcpWorld 0 [], { tcpClient .waitConAck with timeout := some 5 })).1 =
      .ok (.error (.stateTimeout .waitConAck)) := by decide +kernel

/-- An interrupt. -/
example : Spec.Mqtt.quiet (Spec.Mqtt.interrupts (tcpWorld 2 []).tick.chip 3) = false ∧
    (process true 1 worldBus 15 (tcpWorld 2 [], tcpClient .ready)).1 = .ok (.error .disconnect) ∧
    (process true 1 worldBus 15 (tcpWorld 8 [], tcpClient .ready)).1 = .ok (.error .tcpTimeout) := by decide +kernel

/-- A PUBLISH with one property byte. -/
example : Spec.Mqtt.publish [116, 117] [1, 2, 3] [9] 1 = [0x31, 9, 0, 2, 116, 117, 1, 9, 1, 2, 3] := by
  unfold Spec.Mqtt.publish Spec.Mqtt.str Spec.Mqtt.u16
  have h : Spec.Mqtt.vbi ([9] : Bytes).length = [1] := vbi_small (by decide)
  rw [h, packet_small _ _ _ (by decide)]
  decide

/-- Reading the topic, then part of the payload, then leaving the reader. -/
def readPublish (w : World) : Option (List (Except Err (Except MErr Bytes)) × Bytes) :=
  match process true 1 worldBus 5 (w, tcpClient .ready) with
  | (.ok (.ok (.publish rd)), (w, _)) =>
    let u := useReader [.topic 10, .payload 2, .topic 1] rd w
    some (u.1, (publishDone true worldBus u.2.1 u.2.2).2.chip.unread 3)
  | _ => none
example : readPublish (tcpWorld 0 [0x31, 9, 0, 2, 116, 117, 1, 9, 1, 2, 3, 0xD0]) =
    some ([.ok (.ok [116, 117]), .ok (.ok [1, 2]), .ok (.ok [116])], [0xD0]) := by decide +kernel

/-- A PUBLISH with 128 bytes of properties: the payload read begins with the last of them. -/
example : Spec.Mqtt.publish [116] [1, 2] (List.replicate 128 9) 0 = [0x30, 0x87, 1, 0, 1, 116, 0x80, 1] ++ List.replicate 128 9 ++ [1, 2] := by
  unfold Spec.Mqtt.publish Spec.Mqtt.packet
  have h : ∀ n, 128 ≤ n → n < 16384 → Spec.Mqtt.vbi n = [UInt8.ofNat (n % 128 + 128), UInt8.ofNat (n / 128)] := by
    intro n h1 h2
    rw [Spec.Mqtt.vbi.eq_1, if_neg (by omega), vbi_small (by omega)]
  have h1 : Spec.Mqtt.vbi (List.replicate 128 (9 : UInt8)).length = [0x80, 1] := by
    rw [List.length_replicate, h 128 (by decide) (by decide)]; decide
  rw [h1]
  have h2 : (Spec.Mqtt.str [116] ++ ([0x80, 1] ++ List.replicate 128 9) ++ [1, 2]).length = 135 := by decide +kernel
  rw [h2, h 135 (by decide) (by decide)]
  decide +kernel
def readWhole (w : World) : Option (List (Except Err (Except MErr Bytes))) :=
  match process false 1 worldBus 5 (w, tcpClient .ready) with
  | (.ok (.ok (.publish rd)), (w, _)) => some (useReader [.topic 10, .payload 10] rd w).1
  | _ => none
example : readWhole (tcpWorld 0 ([0x30, 0x87, 1, 0, 1, 116, 0x80, 1] ++ List.replicate 127 9 ++ [77] ++ [1, 2])) =
    some [.ok (.ok [116]), .ok (.ok [77, 1, 2])] := by decide +kernel

/-- An unexpected CONNACK. -/
example : (process true 1 worldBus 5 (tcpWorld 0 [0x20, 5, 0, 0, 2, 1, 2, 0x30], tcpClient .ready)).1 = .ok (.error .protocol) := by decide +kernel

/-- C47 fails in this: a CONNACK without a body (which is malformed) is accepted, with the second byte of the next packet as its reason
code: here the next packet is a PINGRESP, and the client reports that it is connected. -/
theorem C47_connack_short_not :
    let r := process true 1 worldBus 5 (tcpWorld 0 (Spec.Mqtt.packet 2 0 [] ++ Spec.Mqtt.packet 13 0 []), tcpClient .waitConAck)
    r.1 = .ok (.ok .connAck) ∧ r.2.2.isConnected = true ∧ r.2.1.chip.unread 3 = Spec.Mqtt.packet 13 0 [] := by
  rw [show Spec.Mqtt.packet 2 0 [] = [0x20, 0] by unfold Spec.Mqtt.packet; rw [Spec.Mqtt.vbi.eq_1]; rfl,
    show Spec.Mqtt.packet 13 0 [] = [0xD0, 0] by unfold Spec.Mqtt.packet; rw [Spec.Mqtt.vbi.eq_1]; rfl]
  refine ⟨by decide +kernel, by decide +kernel, by decide +kernel⟩

end Verif.Thm
