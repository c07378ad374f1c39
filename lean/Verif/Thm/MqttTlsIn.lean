import Verif.Thm.MqttTlsOut
/-!
# C91: MQTT packets received over TLS

In these theorems the TLS client reports application data, or nothing, and holds the unread data `D` (C83 says when it does so and what
`D` is).  `C91_record` is for a record that has arrived.
-/
namespace Verif.MqttTls
open Verif Hl
open _root_.Verif.Spec (World worldBus TxState RxState Queue Chip Mem Image imageOps Sent Cursor cursorOps)
open Verif.Tls (X Crypto TErr TEvent Rng TlsReader Fail Alert tlsWriter tlsSend)
open Verif.Mqtt (State MErr RecvOut PubInfo SubAckReasonCode UnSubAckReasonCode ConnectReasonCode)

variable {x : Crypto}

/-- A call of the TLS client that reports application data or nothing, after which the client holds exactly `D` for the application. -/
structure Gives (dbg : Bool) (fuel : Nat) (rng : Rng x) (secs : UInt32) (w : World) (c : Tls.Client x) (w1 : World) (c1 : Tls.Client x)
    (D : Bytes) : Prop where
  call : Tls.process dbg fuel worldBus rng secs (w, c) = (.ok .applicationData, (w1, c1)) ∨
    Tls.process dbg fuel worldBus rng secs (w, c) = (.ok .none, (w1, c1))
  holds : Tls.Holds c1 D

theorem Gives.receive {dbg : Bool} {fuel : Nat} {rng : Rng x} {secs : UInt32} {w w1 : World} {c : Client x} {c1 : Tls.Client x} {D : Bytes}
    (h : Gives dbg fuel rng secs w c.tls w1 c1 D) :
    process dbg fuel worldBus rng secs (w, c) = MqttTls.receive dbg secs (w1, { c with tls := c1 }) := by
  rcases h.call with h | h
  · exact process_receive dbg fuel worldBus rng secs h (.inl rfl)
  · exact process_receive dbg fuel worldBus rng secs h (.inr rfl)

/-! ## CONNACK -/

theorem connack_in (dbg : Bool) (fuel : Nat) (rng : Rng x) (secs : UInt32) (w w1 : World) (c : Client x) (c1 : Tls.Client x) (D : Bytes)
    (h : Gives dbg fuel rng secs w c.tls w1 c1 D) (hc : c.state = .waitConAck)
    (sp code : UInt8) (tail : Bytes) (hp : Spec.Mqtt.packet 2 0 ([sp, code] ++ tail) <+: D) :
    let r := process dbg fuel worldBus rng secs (w, c)
    r.2.1 = w1 ∧
    (code = 0 → r.1 = .ok .connAck ∧ Left { c with tls := c1, state := .ready, timeout := none } r.2.2 (D.drop (tail.length + 4))) ∧
    (code ≠ 0 → Left { c with tls := c1, state := .init, timeout := none } r.2.2 (D.drop (tail.length + 4)) ∧
      (∀ reason : ConnectReasonCode, reason.code = code → r.1 = .error (.err (.mqtt (.connAck reason)))) ∧
      ((∀ reason : ConnectReasonCode, reason.code ≠ code) → r.1 = .error (.err (.mqtt .protocol)))) := by
  intro r
  have hr : r = MqttTls.receive dbg secs (w1, { c with tls := c1 }) := h.receive
  obtain ⟨hsmall, rest, hD, hin⟩ := packet_in dbg secs (s := w1) (c := { c with tls := c1 }) h.holds 2 0 _ hp
  have hnib : Mqtt.CtrlPkt.ofNibble (UInt8.ofNat (2 * 16 + 0) >>> 4) = .connack := by decide
  have hn : (UInt16.ofNat ([sp, code] ++ tail).length).toNat = tail.length + 2 := by
    rw [ofNat16_toNat]
    · simp
    · rw [hD] at hsmall; simp [Spec.Mqtt.packet] at hsmall ⊢; omega
  have hbody := body_connAck (Spec.Mqtt.packet 2 0 ([sp, code] ++ tail) ++ rest) (1 + (Spec.Mqtt.vbi ([sp, code] ++ tail).length).length)
    sp code (tail ++ rest) (UInt16.ofNat ([sp, code] ++ tail).length)
    (drop_at (pre := UInt8.ofNat (2 * 16 + 0) :: Spec.Mqtt.vbi ([sp, code] ++ tail).length) (by simp [Spec.Mqtt.packet]) (by simp; omega))
    (by
      rw [hn]
      have := Thm.isVbi_ne (Thm.vbi_isVbi ([sp, code] ++ tail).length)
      have := Nat.pos_of_ne_zero this
      simp [Spec.Mqtt.packet] at this ⊢; omega) (by rw [← hD]; omega)
  have hbd : Mqtt.recvBody c.state (Mqtt.header 2 0 ([sp, code] ++ tail)) = Mqtt.recvConnAck .waitConAck (UInt16.ofNat ([sp, code] ++ tail).length) := by
    unfold Mqtt.recvBody Mqtt.header
    dsimp only
    rw [hnib, hc]
  rw [← hbd] at hbody
  obtain ⟨r', g1, g2⟩ := hin _ _ hbody
  rw [hn] at g1
  dsimp only at g1
  rw [g2] at hr
  obtain ⟨c2, e1, e2⟩ := done_run (ε := Error) (c := { c with tls := c1 }) h.holds g1 w1
  have hfin : ∀ m : X Error (World × Client x) (Option Event), (readerDone r' >>= fun _ => m) (w1, { c with tls := c1 }) = m (w1, c2) := by
    intro m; rw [X.bind_ok e1]
  have hleft : ∀ st : State, Left { c with tls := c1, state := st, timeout := none } (c2.setState st) (D.drop (tail.length + 4)) := by
    intro st
    refine ⟨e2.holds, ?_, e2.size⟩
    have := e2.same
    rw [this]
    rfl
  have hlen : tail.length + 2 + 2 = tail.length + 4 := rfl
  rw [X.bind_run] at hr
  unfold recvFinish at hr
  dsimp only at hr
  rw [hfin] at hr
  by_cases hz : code = 0
  · subst hz
    rw [show ConnectReasonCode.tryFrom 0 = .error 0 by decide] at hr
    have hr' : r = (.ok .connAck, (w1, c2.setState .ready)) := hr
    rw [hr']
    exact ⟨rfl, fun _ => ⟨rfl, hleft .ready⟩, fun h => absurd rfl h⟩
  · by_cases he : ∃ reason : ConnectReasonCode, reason.code = code
    · obtain ⟨reason, rfl⟩ := he
      rw [Thm.connect_code] at hr
      have hr' : r = (.error (.err (.mqtt (.connAck reason))), (w1, c2.setState .init)) := hr
      rw [hr']
      refine ⟨rfl, fun h => absurd h hz, fun _ => ⟨hleft .init, ?_, fun h => absurd rfl (h reason)⟩⟩
      intro reason' hre
      have := Thm.connect_code reason'
      rw [hre, Thm.connect_code] at this
      injection this with this
      rw [this]
    · have he' : ∀ reason : ConnectReasonCode, reason.code ≠ code := fun a h => he ⟨a, h⟩
      rw [show ConnectReasonCode.tryFrom code = .error code from Thm.findCode_error _ _ _ he'] at hr
      dsimp only at hr
      rw [if_neg hz] at hr
      have hr' : r = (.error (.err (.mqtt .protocol)), (w1, c2.setState .init)) := hr
      rw [hr']
      exact ⟨rfl, fun h => absurd h hz, fun _ => ⟨hleft .init, fun a h => absurd h (he' a), fun _ => rfl⟩⟩

/-- C91 for a CONNACK received while waiting for it, of a remaining length below 128: `process` reports the connection (code 0) or
an error with the reason, the client becomes connected or is reset, and exactly this packet was consumed.  Missing: longer packets, see
`C91_connack_long_not`. -/
theorem C91_connack_partial (dbg : Bool) (fuel : Nat) (rng : Rng x) (secs : UInt32) (w w1 : World) (c : Client x) (c1 : Tls.Client x) (D : Bytes)
    (h : Gives dbg fuel rng secs w c.tls w1 c1 D) (hc : c.state = .waitConAck)
    (sp code : UInt8) (props rest : Bytes) (hl : props.length < 125) (hp : D = Spec.Mqtt.connack sp code props ++ rest) :
    let r := process dbg fuel worldBus rng secs (w, c)
    r.2.1 = w1 ∧
    (code = 0 → r.1 = .ok .connAck ∧ Left { c with tls := c1, state := .ready, timeout := none } r.2.2 rest) ∧
    (code ≠ 0 → Left { c with tls := c1, state := .init, timeout := none } r.2.2 rest ∧
      (∀ reason : ConnectReasonCode, reason.code = code → r.1 = .error (.err (.mqtt (.connAck reason)))) ∧
      ((∀ reason : ConnectReasonCode, reason.code ≠ code) → r.1 = .error (.err (.mqtt .protocol)))) := by
  have hv : Spec.Mqtt.vbi props.length = [UInt8.ofNat props.length] := by rw [Spec.Mqtt.vbi.eq_1, if_pos (by omega)]
  have hlen : (Spec.Mqtt.connack sp code props).length = (Spec.Mqtt.vbi props.length ++ props).length + 4 := by
    unfold Spec.Mqtt.connack Spec.Mqtt.packet
    rw [hv, Spec.Mqtt.vbi.eq_1, if_pos (by simp; omega)]
    simp
  have := connack_in dbg fuel rng secs w w1 c c1 D h hc sp code (Spec.Mqtt.vbi props.length ++ props) (by rw [hp]; exact List.prefix_append _ _)
  rw [← hlen, hp, List.drop_left] at this
  exact this

/-- The negation of C91 for a CONNACK of a remaining length of 128 or more: `process` handles it, but does not consume all of it: the
rest is taken for the beginning of the next packet. -/
theorem C91_connack_long_not (dbg : Bool) (fuel : Nat) (rng : Rng x) (secs : UInt32) (w w1 : World) (c : Client x) (c1 : Tls.Client x) (D : Bytes)
    (h : Gives dbg fuel rng secs w c.tls w1 c1 D) (hc : c.state = .waitConAck)
    (sp : UInt8) (props rest : Bytes) (hl : 125 ≤ props.length) (hp : D = Spec.Mqtt.connack sp 0 props ++ rest) :
    let r := process dbg fuel worldBus rng secs (w, c)
    r.1 = .ok .connAck ∧ ∃ left, left ≠ [] ∧ Left { c with tls := c1, state := .ready, timeout := none } r.2.2 (left ++ rest) := by
  obtain ⟨-, h1, -⟩ := connack_in dbg fuel rng secs w w1 c c1 D h hc sp 0 (Spec.Mqtt.vbi props.length ++ props) (by rw [hp]; exact List.prefix_append _ _)
  obtain ⟨h1, h2⟩ := h1 rfl
  have hpos := Nat.pos_of_ne_zero (Thm.isVbi_ne (Thm.vbi_isVbi props.length))
  have h3 : 2 ≤ (Spec.Mqtt.vbi ([sp, 0] ++ (Spec.Mqtt.vbi props.length ++ props)).length).length := by
    rw [Spec.Mqtt.vbi.eq_1, if_neg (by simp; omega)]
    have := Nat.pos_of_ne_zero (Thm.isVbi_ne (Thm.vbi_isVbi (([sp, 0] ++ (Spec.Mqtt.vbi props.length ++ props)).length / 128)))
    simp only [List.length_cons]; omega
  have hlt : (Spec.Mqtt.vbi props.length ++ props).length + 4 < (Spec.Mqtt.connack sp 0 props).length := by
    unfold Spec.Mqtt.connack Spec.Mqtt.packet
    simp at h3 ⊢
    omega
  refine ⟨h1, (Spec.Mqtt.connack sp 0 props).drop ((Spec.Mqtt.vbi props.length ++ props).length + 4), ?_, ?_⟩
  · intro e
    have := congrArg List.length e
    rw [List.length_drop, List.length_nil] at this
    omega
  · rw [hp, List.drop_append_of_le_length (by omega)] at h2
    exact h2

/-! ## SUBACK and UNSUBACK -/

theorem ack_in (dbg : Bool) (secs : UInt32) (w1 : World) (c : Client x) (D : Bytes) (hD : Tls.Holds c.tls D) (type : Nat)
    (f : UInt16 → UInt8 → RecvOut) (ht : ∀ n, Mqtt.recvBody c.state ⟨Mqtt.CtrlPkt.ofNibble (UInt8.ofNat (type * 16 + 0) >>> 4),
      UInt8.ofNat (type * 16 + 0) &&& 0xF, UInt16.ofNat n, UInt8.ofNat ((Spec.Mqtt.vbi n).length + 1)⟩ = Mqtt.recvAck f)
    (id : UInt16) (code : UInt8) (props rest : Bytes) (hl : props.length < 128) (hp : D = Spec.Mqtt.ack type id.toNat props [code] ++ rest) :
    ∃ r', ReaderOf c D r' (Spec.Mqtt.ack type id.toNat props [code]).length ∧
      MqttTls.receive dbg secs (w1, c) = (recvFinish r' (f id code) >>= after dbg secs) (w1, c) := by
  have hv : Spec.Mqtt.vbi props.length = [UInt8.ofNat props.length] := by rw [Spec.Mqtt.vbi.eq_1, if_pos (by omega)]
  generalize hbody : Spec.Mqtt.u16 id.toNat ++ (Spec.Mqtt.vbi props.length ++ props) ++ [code] = body at *
  have hpk : Spec.Mqtt.ack type id.toNat props [code] = Spec.Mqtt.packet type 0 body := by rw [← hbody]; rfl
  rw [hpk] at hp ⊢
  obtain ⟨hsmall, rest', hD', hin⟩ := packet_in dbg secs (s := w1) hD type 0 body (by rw [hp]; exact List.prefix_append _ _)
  have hpl : (UInt8.ofNat props.length).toNat = props.length := by simp; omega
  have hrun := body_ack f (Spec.Mqtt.packet type 0 body ++ rest') (1 + (Spec.Mqtt.vbi body.length).length)
    (UInt8.ofNat (id.toNat / 256)) (UInt8.ofNat id.toNat) (UInt8.ofNat props.length) code props rest' hpl.symm
    (drop_at (pre := UInt8.ofNat (type * 16 + 0) :: Spec.Mqtt.vbi body.length) (by rw [← hbody, hv]; simp [Spec.Mqtt.packet, Spec.Mqtt.u16])
      (by simp; omega))
  have hid : be16 (UInt8.ofNat (id.toNat / 256)) (UInt8.ofNat id.toNat) = id := by
    apply UInt16.toNat_inj.mp
    have := id.toNat_lt
    rw [be16_toNat, UInt8.toNat_ofNat', UInt8.toNat_ofNat']; omega
  rw [← ht body.length, hid] at hrun
  obtain ⟨r', g1, g2⟩ := hin _ _ hrun
  have hlen : 1 + (Spec.Mqtt.vbi body.length).length + 3 + (UInt8.ofNat props.length).toNat + 1 = (Spec.Mqtt.packet type 0 body).length := by
    rw [hpl]
    have : body.length = 2 + 1 + props.length + 1 := by rw [← hbody, hv]; simp [Spec.Mqtt.u16]; omega
    unfold Spec.Mqtt.packet
    rw [List.length_cons, List.length_append]; omega
  dsimp only at g1
  rw [hlen] at g1
  exact ⟨r', g1, g2⟩

/-- C91 for a SUBACK with one reason code and fewer than 128 bytes of properties: `process` returns its identifier and the reason, and
exactly this packet was consumed.  Missing: longer properties, see `C91_suback_props_not`. -/
theorem C91_suback_partial (dbg : Bool) (fuel : Nat) (rng : Rng x) (secs : UInt32) (w w1 : World) (c : Client x) (c1 : Tls.Client x) (D : Bytes)
    (h : Gives dbg fuel rng secs w c.tls w1 c1 D) (id : UInt16) (reason : SubAckReasonCode) (props rest : Bytes) (hl : props.length < 128)
    (hp : D = Spec.Mqtt.ack 9 id.toNat props [reason.code] ++ rest) :
    let r := process dbg fuel worldBus rng secs (w, c)
    r.1 = .ok (.subAck id reason) ∧ r.2.1 = w1 ∧ Left { c with tls := c1 } r.2.2 rest := by
  intro r
  obtain ⟨r', g1, g2⟩ := ack_in dbg secs w1 { c with tls := c1 } D h.holds 9 Mqtt.subAckOut
    (by intro n; rw [show Mqtt.CtrlPkt.ofNibble (UInt8.ofNat (9 * 16 + 0) >>> 4) = .suback by decide]; rfl) id reason.code props rest hl hp
  rw [show Mqtt.subAckOut id reason.code = .subAck id reason by unfold Mqtt.subAckOut; rw [Thm.subAck_code]] at g2
  obtain ⟨c2, e1, e2⟩ := done_run (ε := Error) (c := { c with tls := c1 }) h.holds g1 w1
  rw [hp, List.drop_left] at e2
  have hr : r = (.ok (.subAck id reason), (w1, c2)) := by
    refine (h.receive.trans g2).trans ?_
    unfold recvFinish
    dsimp only
    rw [X.bind_run, X.bind_ok e1]
    rfl
  rw [hr]
  exact ⟨rfl, rfl, e2⟩

/-- C91 for an UNSUBACK: the same. -/
theorem C91_unsuback_partial (dbg : Bool) (fuel : Nat) (rng : Rng x) (secs : UInt32) (w w1 : World) (c : Client x) (c1 : Tls.Client x) (D : Bytes)
    (h : Gives dbg fuel rng secs w c.tls w1 c1 D) (id : UInt16) (reason : UnSubAckReasonCode) (props rest : Bytes) (hl : props.length < 128)
    (hp : D = Spec.Mqtt.ack 11 id.toNat props [reason.code] ++ rest) :
    let r := process dbg fuel worldBus rng secs (w, c)
    r.1 = .ok (.unSubAck id reason) ∧ r.2.1 = w1 ∧ Left { c with tls := c1 } r.2.2 rest := by
  intro r
  obtain ⟨r', g1, g2⟩ := ack_in dbg secs w1 { c with tls := c1 } D h.holds 11 Mqtt.unSubAckOut
    (by intro n; rw [show Mqtt.CtrlPkt.ofNibble (UInt8.ofNat (11 * 16 + 0) >>> 4) = .unsuback by decide]; rfl) id reason.code props rest hl hp
  rw [show Mqtt.unSubAckOut id reason.code = .unSubAck id reason by unfold Mqtt.unSubAckOut; rw [Thm.unSubAck_code]] at g2
  obtain ⟨c2, e1, e2⟩ := done_run (ε := Error) (c := { c with tls := c1 }) h.holds g1 w1
  rw [hp, List.drop_left] at e2
  have hr : r = (.ok (.unSubAck id reason), (w1, c2)) := by
    refine (h.receive.trans g2).trans ?_
    unfold recvFinish
    dsimp only
    rw [X.bind_run, X.bind_ok e1]
    rfl
  rw [hr]
  exact ⟨rfl, rfl, e2⟩

/-- The negation of C91 for a SUBACK with 128 to 255 bytes of properties: if their last byte is a reason code, `process` returns that
one instead of the one of the packet, and leaves the last byte of the packet unread. -/
theorem C91_suback_props_not (dbg : Bool) (fuel : Nat) (rng : Rng x) (secs : UInt32) (w w1 : World) (c : Client x) (c1 : Tls.Client x) (D : Bytes)
    (h : Gives dbg fuel rng secs w c.tls w1 c1 D) (id : UInt16) (reason wrong : SubAckReasonCode) (props rest : Bytes)
    (hl : 127 ≤ props.length) (hl' : props.length < 255) (hp : D = Spec.Mqtt.ack 9 id.toNat (props ++ [wrong.code]) [reason.code] ++ rest) :
    let r := process dbg fuel worldBus rng secs (w, c)
    r.1 = .ok (.subAck id wrong) ∧ Left { c with tls := c1 } r.2.2 (reason.code :: rest) := by
  intro r
  have hv : Spec.Mqtt.vbi (props ++ [wrong.code]).length = [UInt8.ofNat (props.length + 1), 1] := by
    rw [Spec.Mqtt.vbi.eq_1, if_neg (by simp; omega), Spec.Mqtt.vbi.eq_1, if_pos (by simp; omega), List.length_append]
    change [UInt8.ofNat ((props.length + 1) % 128 + 128), UInt8.ofNat ((props.length + 1) / 128)] = _
    rw [show (props.length + 1) % 128 + 128 = props.length + 1 by omega, show (props.length + 1) / 128 = 1 by omega]
    rfl
  generalize hbody : Spec.Mqtt.u16 id.toNat ++ (Spec.Mqtt.vbi (props ++ [wrong.code]).length ++ (props ++ [wrong.code])) ++ [reason.code] = body at *
  have hpk : Spec.Mqtt.ack 9 id.toNat (props ++ [wrong.code]) [reason.code] = Spec.Mqtt.packet 9 0 body := by rw [← hbody]; rfl
  rw [hpk] at hp
  obtain ⟨hsmall, rest', hD', hin⟩ := packet_in dbg secs (s := w1) (c := { c with tls := c1 }) h.holds 9 0 body (by rw [hp]; exact List.prefix_append _ _)
  have hrr : rest' = rest := List.append_cancel_left (hD'.symm.trans hp)
  subst hrr
  have hnib : Mqtt.CtrlPkt.ofNibble (UInt8.ofNat (9 * 16 + 0) >>> 4) = .suback := by decide
  have hpl : (UInt8.ofNat (props.length + 1)).toNat = props.length + 1 := by simp; omega
  have hrun := body_ack Mqtt.subAckOut (Spec.Mqtt.packet 9 0 body ++ rest') (1 + (Spec.Mqtt.vbi body.length).length)
    (UInt8.ofNat (id.toNat / 256)) (UInt8.ofNat id.toNat) (UInt8.ofNat (props.length + 1)) wrong.code (1 :: props) (reason.code :: rest')
    (by rw [hpl]; simp)
    (drop_at (pre := UInt8.ofNat (9 * 16 + 0) :: Spec.Mqtt.vbi body.length) (by rw [← hbody, hv]; simp [Spec.Mqtt.packet, Spec.Mqtt.u16])
      (by simp; omega))
  have hbd : Mqtt.recvBody c.state (Mqtt.header 9 0 body) = Mqtt.recvAck Mqtt.subAckOut := by
    unfold Mqtt.recvBody Mqtt.header
    dsimp only
    rw [hnib]
  have hid : be16 (UInt8.ofNat (id.toNat / 256)) (UInt8.ofNat id.toNat) = id := by
    apply UInt16.toNat_inj.mp
    have := id.toNat_lt
    rw [be16_toNat, UInt8.toNat_ofNat', UInt8.toNat_ofNat']; omega
  rw [← hbd, hid, show Mqtt.subAckOut id wrong.code = .subAck id wrong by unfold Mqtt.subAckOut; rw [Thm.subAck_code]] at hrun
  obtain ⟨r', g1, g2⟩ := hin _ _ hrun
  obtain ⟨c2, e1, e2⟩ := done_run (ε := Error) (c := { c with tls := c1 }) h.holds g1 w1
  have hr : r = (.ok (.subAck id wrong), (w1, c2)) := by
    refine (h.receive.trans g2).trans ?_
    unfold recvFinish
    dsimp only
    rw [X.bind_run, X.bind_ok e1]
    rfl
  rw [hr]
  refine ⟨rfl, ?_⟩
  have hbl : body.length = 2 + 2 + (props.length + 1) + 1 := by rw [← hbody, hv]; simp [Spec.Mqtt.u16]; omega
  have hdrop : D.drop (1 + (Spec.Mqtt.vbi body.length).length + 3 + (UInt8.ofNat (props.length + 1)).toNat + 1) = reason.code :: rest' := by
    rw [hpl, hp]
    refine drop_at (pre := UInt8.ofNat (9 * 16 + 0) :: (Spec.Mqtt.vbi body.length ++ (Spec.Mqtt.u16 id.toNat ++
      (UInt8.ofNat (props.length + 1) :: 1 :: (props ++ [wrong.code]))))) ?_ ?_
    · unfold Spec.Mqtt.packet
      conv => lhs; rw [show body = Spec.Mqtt.u16 id.toNat ++ (UInt8.ofNat (props.length + 1) :: 1 :: (props ++ [wrong.code])) ++ [reason.code] by
        rw [← hbody, hv]; simp]
      rw [show body.length = (Spec.Mqtt.u16 id.toNat ++ (UInt8.ofNat (props.length + 1) :: 1 :: (props ++ [wrong.code])) ++ [reason.code]).length by
        rw [← hbody, hv]; simp]
      simp
    · simp [Spec.Mqtt.u16]; omega
  dsimp only at e2
  rw [hdrop] at e2
  exact e2

/-! ## Nothing to report -/

/-- How `process` ends when there is nothing to report: `res` is the result and `c'` the client afterwards.  Without a timeout there is no
event.  Otherwise, at most ten seconds after the time the timeout was started, the caller is told to call again when ten seconds have
passed, and after that the state is reset and the timeout reported.  With a clock that went back there is at least no event. -/
def Idle (secs : UInt32) (c : Client x) (res : Except (Fail Error) Event) (c' : Client x) : Prop :=
  (c.timeout = none → res = .ok .none ∧ c' = c) ∧
  (∀ t, c.timeout = some t → t.toNat ≤ secs.toNat →
    (secs.toNat - t.toNat ≤ 10 → ∃ n, n.toNat = 10 - (secs.toNat - t.toNat) ∧ res = .ok (.callAfter n) ∧ c' = c) ∧
    (10 < secs.toNat - t.toNat → res = .error (.err (.mqtt (.stateTimeout c.state))) ∧ c' = { c with state := .init, timeout := none })) ∧
  (∀ ev, res = .ok ev → ev = .none ∨ ∃ n, ev = .callAfter n)

theorem checkTimeout_idle (dbg : Bool) (secs : UInt32) (w : World) (c : Client x) :
    (checkTimeout dbg secs (w, c)).2.1 = w ∧ Idle secs c (checkTimeout dbg secs (w, c)).1 (checkTimeout dbg secs (w, c)).2.2 := by
  unfold Idle
  cases ht : c.timeout with
  | none =>
    have : checkTimeout dbg secs (w, c) = (.ok .none, (w, c)) := by
      unfold checkTimeout Client.elapsedSecs
      rw [X.bind_ok (getC_run (w, c)), ht]; rfl
    rw [this]
    exact ⟨rfl, fun _ => ⟨rfl, rfl⟩, by simp, by simp⟩
  | some t =>
    by_cases hp : dbg = true ∧ secs < t
    · have : checkTimeout dbg secs (w, c) = (.error (.stop .panic), (w, c)) := by
        unfold checkTimeout Client.elapsedSecs
        rw [X.bind_ok (getC_run (w, c)), ht]; dsimp only; rw [if_pos hp]; rfl
      rw [this]
      have := UInt32.lt_iff_toNat_lt.mp hp.2
      refine ⟨rfl, by simp, ?_, by simp⟩
      intro t' h1 h2; injection h1 with h1; subst h1; omega
    · have hrun : checkTimeout dbg secs (w, c) = (if secs - t > Mqtt.timeoutSecs then
          (.error (.err (.mqtt (.stateTimeout c.state))), (w, { c with state := .init, timeout := none }))
          else (.ok (.callAfter (Mqtt.timeoutSecs - (secs - t))), (w, c))) := by
        unfold checkTimeout Client.elapsedSecs
        rw [X.bind_ok (getC_run (w, c)), ht]; dsimp only; rw [if_neg hp]
        rw [X.bind_ok (show (Tls.ofCipher (.ok (some (secs - t))) : X Error (World × Client x) _) (w, c) = (.ok (some (secs - t)), (w, c)) from rfl)]
        dsimp only
        split <;> rfl
      rw [hrun]
      refine ⟨by split <;> rfl, by simp, ?_, ?_⟩
      · intro t' h1 h2; injection h1 with h1; subst h1
        have hsub : (secs - t).toNat = secs.toNat - t.toNat := UInt32.toNat_sub_of_le _ _ (UInt32.le_iff_toNat_le.mpr h2)
        have h10 : Mqtt.timeoutSecs.toNat = 10 := rfl
        constructor
        · intro h
          have hn : ¬ secs - t > Mqtt.timeoutSecs := by rw [gt_iff_lt, UInt32.lt_iff_toNat_lt, hsub]; omega
          rw [if_neg hn]
          refine ⟨_, ?_, rfl, rfl⟩
          rw [UInt32.toNat_sub_of_le _ _ (by rw [UInt32.le_iff_toNat_le, hsub]; omega), hsub]; rfl
        · intro h
          rw [if_pos (by rw [gt_iff_lt, UInt32.lt_iff_toNat_lt, hsub]; omega)]
          exact ⟨rfl, rfl⟩
      · intro ev
        split
        · simp
        · intro h; simp at h; exact .inr ⟨_, h.symm⟩

/-- C91 for a packet of a type the client does not handle: it is consumed, and nothing else happens. -/
theorem C91_ignored (dbg : Bool) (fuel : Nat) (rng : Rng x) (secs : UInt32) (w w1 : World) (c : Client x) (c1 : Tls.Client x) (D : Bytes)
    (h : Gives dbg fuel rng secs w c.tls w1 c1 D) (type flags : Nat) (body rest : Bytes) (ht : type < 16) (hf : flags < 16)
    (hty : type ∉ [0, 2, 3, 9, 11]) (hp : D = Spec.Mqtt.packet type flags body ++ rest) :
    let r := process dbg fuel worldBus rng secs (w, c)
    r.2.1 = w1 ∧ ∃ c2, Left { c with tls := c1 } c2 rest ∧ Idle secs c2 r.1 r.2.2 := by
  intro r
  obtain ⟨hsmall, rest', hD', hin⟩ := packet_in dbg secs (s := w1) (c := { c with tls := c1 }) h.holds type flags body
    (by rw [hp]; exact List.prefix_append _ _)
  have hrr : rest' = rest := List.append_cancel_left (hD'.symm.trans hp)
  subst hrr
  have hlen : body.length ≤ 32767 := by rw [hp] at hsmall; simp [Spec.Mqtt.packet] at hsmall; omega
  have hn : (UInt16.ofNat body.length).toNat = body.length := ofNat16_toNat (by omega)
  have hbd : Mqtt.recvBody c.state (Mqtt.header type flags body) =
      (RProg.doSeek (.current (Mqtt.toI16 (UInt16.ofNat body.length))) >>= fun _ => pure .ignored) := by
    have hcode := nibble_code ⟨type, ht⟩ ⟨flags, hf⟩
    dsimp only at hcode
    unfold Mqtt.recvBody Mqtt.header
    dsimp only
    generalize Mqtt.CtrlPkt.ofNibble (UInt8.ofNat (type * 16 + flags) >>> 4) = q at hcode
    subst hcode
    cases q <;> first | rfl | (exact absurd (by decide) hty)
  have hrun : (Mqtt.recvBody c.state (Mqtt.header type flags body)).run cursorOps
      ⟨Spec.Mqtt.packet type flags body ++ rest', 1 + (Spec.Mqtt.vbi body.length).length⟩ =
      (.ok .ignored, ⟨Spec.Mqtt.packet type flags body ++ rest', (Spec.Mqtt.packet type flags body).length⟩) := by
    rw [hbd, RProg.bind_ok (cur_seekCurrent (q := (Spec.Mqtt.packet type flags body).length)
      (by rw [toI16_toInt _ (by omega), hn]; simp [Spec.Mqtt.packet]; omega) (by simp))]
    rfl
  obtain ⟨r', g1, g2⟩ := hin _ _ hrun
  obtain ⟨c2, e1, e2⟩ := done_run (ε := Error) (c := { c with tls := c1 }) h.holds g1 w1
  dsimp only at e2
  rw [hp, List.drop_left] at e2
  have hr : r = checkTimeout dbg secs (w1, c2) := by
    refine (h.receive.trans g2).trans ?_
    unfold recvFinish
    dsimp only
    rw [X.bind_run, X.bind_ok e1]
    rfl
  obtain ⟨i1, i2⟩ := checkTimeout_idle dbg secs w1 c2
  rw [hr]
  exact ⟨i1, c2, e2, i2⟩

theorem incomplete_in (dbg : Bool) (fuel : Nat) (rng : Rng x) (secs : UInt32) (w w1 : World) (c : Client x) (c1 : Tls.Client x) (D : Bytes)
    (h : Gives dbg fuel rng secs w c.tls w1 c1 D) (type flags : Nat) (body : Bytes) (hl : body.length ≤ 65535)
    (hp : D <+: Spec.Mqtt.packet type flags body) (hne : D ≠ Spec.Mqtt.packet type flags body) :
    process dbg fuel worldBus rng secs (w, c) = checkTimeout dbg secs (w1, { c with tls := c1 }) := by
  rw [h.receive]
  have hd := data_run dbg secs (s := w1) (c := { c with tls := c1 }) h.holds
  by_cases he : D = []
  · exact hd.1 he
  · have hsmall : D.length ≤ 32767 := Tls.QRel.app_small h.holds
    have hlt := strict_prefix_length hp hne
    obtain ⟨cur, hrun⟩ := recv_incomplete dbg c.state _ (Spec.Mqtt.vbi body.length) body D (Thm.vbi_isVbi _)
      (by have := Mqtt.vbi_length_le body.length (by omega); omega) hl (by omega) hp hne
    obtain ⟨r', -, g⟩ := (hd.2 he).1 _ _ hrun
    rw [g]
    rfl

/-- C91, incomplete packets: if what the client holds is a proper beginning of a packet (perhaps empty), none of it is consumed, and there
is no event; with a timeout (C73): if the client waits for CONNACK, the caller is told to call again when ten seconds have passed
since it began to wait, and after that the state is reset and the timeout reported. -/
theorem C91_incomplete (dbg : Bool) (fuel : Nat) (rng : Rng x) (secs : UInt32) (w w1 : World) (c : Client x) (c1 : Tls.Client x) (D : Bytes)
    (h : Gives dbg fuel rng secs w c.tls w1 c1 D) (type flags : Nat) (body : Bytes) (hl : body.length ≤ 65535)
    (hp : D <+: Spec.Mqtt.packet type flags body) (hne : D ≠ Spec.Mqtt.packet type flags body) :
    let r := process dbg fuel worldBus rng secs (w, c)
    r.2.1 = w1 ∧ r.2.2.tls = c1 ∧ Idle secs { c with tls := c1 } r.1 r.2.2 := by
  have e := incomplete_in dbg fuel rng secs w w1 c c1 D h type flags body hl hp hne
  obtain ⟨i1, i2⟩ := checkTimeout_idle dbg secs w1 { c with tls := c1 }
  dsimp only
  rw [e]
  refine ⟨i1, ?_, i2⟩
  unfold checkTimeout
  rw [X.bind_ok (getC_run _)]
  cases he : Client.elapsedSecs dbg { c with tls := c1 } secs with
  | error e => rfl
  | ok o =>
    rw [X.bind_ok (show (Tls.ofCipher (.ok o) : X Error (World × Client x) _) (w1, { c with tls := c1 }) = (.ok o, (w1, { c with tls := c1 })) from rfl)]
    cases o with
    | none => rfl
    | some n => dsimp only; split <;> rfl

/-! ## PUBLISH -/

/-- What a user can do with the reader of a PUBLISH event: read the topic or the payload into a buffer of `n` bytes. -/
inductive PubOp where
  | topic (n : Nat)
  | payload (n : Nat)

/-- What reading should give. -/
def PubOp.expected (topic payload : Bytes) : PubOp → Bytes
  | .topic n => topic.take n
  | .payload n => payload.take n

/-- Read once. -/
def PubOp.run (dbg : Bool) (r : TlsReader) (info : PubInfo) : PubOp → Except (Fail Error) (Bytes × TlsReader)
  | .topic n => onPublish dbg r (Mqtt.readTopicProg info n)
  | .payload n => onPublish dbg r (Mqtt.readPayloadProg info n)

/-- Use the reader: the results and the reader afterwards. -/
def useReader (dbg : Bool) (info : PubInfo) : List PubOp → TlsReader → List (Except (Fail Error) Bytes) × TlsReader
  | [], r => ([], r)
  | op :: ops, r =>
    match op.run dbg r info with
    | .ok (bs, r') => (.ok bs :: (useReader dbg info ops r').1, (useReader dbg info ops r').2)
    | .error e => (.error e :: (useReader dbg info ops r).1, (useReader dbg info ops r).2)

/-- `r` is the result of `process` when the client holds a PUBLISH packet with this topic and payload, followed by `rest`. -/
structure Published (dbg : Bool) (c : Client x) (w1 : World) (topic payload rest : Bytes) (r : Except (Fail Error) Event × (World × Client x)) : Prop where
  same : r.2 = (w1, c)
  event : ∃ rd info, r.1 = .ok (.publish rd info) ∧ info.topicLen.toNat = topic.length ∧ info.payloadLen.toNat = payload.length ∧
    ∀ ops : List PubOp, (useReader dbg info ops rd).1 = ops.map (fun op => .ok (op.expected topic payload)) ∧
      ∀ s : World, ∃ c2, publishDone dbg (useReader dbg info ops rd).2 info (s, c) = (.ok (), (s, c2)) ∧ Left c c2 rest

/-- C91 for PUBLISH packets with QoS 0 and fewer than 128 bytes of properties: `process` returns an event whose reader gives the topic and
the payload (as much as fits into the buffer), however often and in whatever order they are read; nothing is consumed until `done`, which
consumes exactly this packet. -/
theorem C91_publish (dbg : Bool) (fuel : Nat) (rng : Rng x) (secs : UInt32) (w w1 : World) (c : Client x) (c1 : Tls.Client x) (D : Bytes)
    (h : Gives dbg fuel rng secs w c.tls w1 c1 D) (topic payload props rest : Bytes) (flags : Nat) (hf : flags < 16) (hl : props.length < 128)
    (hp : D = Spec.Mqtt.publish topic payload props flags ++ rest) :
    Published dbg { c with tls := c1 } w1 topic payload rest (process dbg fuel worldBus rng secs (w, c)) := by
  have hv : Spec.Mqtt.vbi props.length = [UInt8.ofNat props.length] := by rw [Spec.Mqtt.vbi.eq_1, if_pos (by omega)]
  generalize hbody : Spec.Mqtt.str topic ++ (Spec.Mqtt.vbi props.length ++ props) ++ payload = body at *
  have hpk : Spec.Mqtt.publish topic payload props flags = Spec.Mqtt.packet 3 flags body := by rw [← hbody]; rfl
  rw [hpk] at hp
  obtain ⟨hsmall, rest', hD', hin⟩ := packet_in dbg secs (s := w1) (c := { c with tls := c1 }) h.holds 3 flags body
    (by rw [hp]; exact List.prefix_append _ _)
  have hrr : rest' = rest := List.append_cancel_left (hD'.symm.trans hp)
  subst hrr
  have hpl : (UInt8.ofNat props.length).toNat = props.length := by simp; omega
  have hbl : body.length = 2 + topic.length + 1 + props.length + payload.length := by
    rw [← hbody, hv]; simp [Spec.Mqtt.str, Spec.Mqtt.u16]; omega
  have hpkl : (Spec.Mqtt.packet 3 flags body).length = 1 + (Spec.Mqtt.vbi body.length).length + body.length := by
    simp [Spec.Mqtt.packet]; omega
  have hDl : D.length = (Spec.Mqtt.packet 3 flags body).length + rest'.length := by rw [hp]; simp
  have hD : (Spec.Mqtt.packet 3 flags body ++ rest').drop (1 + (Spec.Mqtt.vbi body.length).length) =
      Spec.Mqtt.str topic ++ UInt8.ofNat props.length :: (props ++ (payload ++ rest')) :=
    drop_at (pre := UInt8.ofNat (3 * 16 + flags) :: Spec.Mqtt.vbi body.length) (by rw [← hbody, hv]; simp [Spec.Mqtt.packet]) (by simp; omega)
  obtain ⟨i, hrun, j1, j2, j3, j4⟩ := body_publish (Spec.Mqtt.packet 3 flags body ++ rest') (1 + (Spec.Mqtt.vbi body.length).length)
    topic props payload rest' (UInt8.ofNat props.length) (UInt16.ofNat body.length) hpl.symm (by rw [← hp]; omega)
    (by rw [ofNat16_toNat (by omega)]; exact hbl) hD
  have hbd : Mqtt.recvBody c.state (Mqtt.header 3 flags body) = Mqtt.recvPublish (UInt16.ofNat body.length) := by
    have hnib := nibble_eq 3 flags (by omega) hf .publish rfl
    unfold Mqtt.recvBody Mqtt.header
    dsimp only
    rw [hnib]
  rw [← hbd] at hrun
  obtain ⟨r', g1, g2⟩ := hin _ _ hrun
  have hr : process dbg fuel worldBus rng secs (w, c) = (.ok (.publish r' i), (w1, { c with tls := c1 })) := (h.receive.trans g2).trans rfl
  rw [hr]
  refine ⟨rfl, r', i, rfl, j1, j3, ?_⟩
  rw [← hp] at hD
  have hT : D.drop (1 + (Spec.Mqtt.vbi body.length).length + 2) = topic ++ (UInt8.ofNat props.length :: (props ++ (payload ++ rest'))) := by
    rw [← List.drop_drop, hD]
    exact drop_at (pre := Spec.Mqtt.u16 topic.length) (by simp [Spec.Mqtt.str]) rfl
  have hP : D.drop (1 + (Spec.Mqtt.vbi body.length).length + 2 + topic.length + 1 + props.length) = payload ++ rest' := by
    rw [Nat.add_assoc, Nat.add_assoc, ← List.drop_drop, hT]
    exact drop_at (pre := topic ++ UInt8.ofNat props.length :: props) (by simp) (by simp; omega)
  -- reading
  have hread : ∀ (part tail : Bytes) (k n : Nat) (idx len : UInt16) (rr : TlsReader) (pos : Nat), ReaderOf { c with tls := c1 } D rr pos →
      idx.toNat = k → len.toNat = part.length → D.drop k = part ++ tail → k ≤ D.length → ∃ rr' pos',
        onPublish dbg rr (RProg.doSeek (.start idx) >>= fun _ => RProg.doReadExact (min16 (lenU16 n) len).toNat) = .ok (part.take n, rr') ∧
        ReaderOf { c with tls := c1 } D rr' pos' := by
    intro part tail k n idx len rr pos hrd hk hl hd hkl
    obtain ⟨rr', e1, e2, -⟩ := hrd.run dbg _ (Thm.readPart_run D part tail k n pos idx len hk hl hd hkl)
    refine ⟨rr', _, ?_, e2⟩
    unfold onPublish
    rw [e1]
  have huse : ∀ (ops : List PubOp) (rr : TlsReader) (pos : Nat), ReaderOf { c with tls := c1 } D rr pos →
      (useReader dbg i ops rr).1 = ops.map (fun op => .ok (op.expected topic payload)) ∧
      ∃ pos', ReaderOf { c with tls := c1 } D (useReader dbg i ops rr).2 pos' := by
    intro ops
    induction ops with
    | nil => intro rr pos hrel; exact ⟨rfl, pos, hrel⟩
    | cons op ops ih =>
      intro rr pos hrel
      have hop : ∃ rr' pos', op.run dbg rr i = .ok (op.expected topic payload, rr') ∧ ReaderOf { c with tls := c1 } D rr' pos' := by
        cases op with
        | topic n => exact hread topic _ _ n i.topicIdx i.topicLen rr pos hrel j2 j1 hT (by omega)
        | payload n => exact hread payload _ _ n i.payloadIdx i.payloadLen rr pos hrel j4 j3 hP (by omega)
      obtain ⟨rr', pos', e1, e2⟩ := hop
      obtain ⟨u1, u2⟩ := ih rr' pos' e2
      unfold useReader
      rw [e1]
      exact ⟨by rw [List.map_cons]; dsimp only; rw [u1], u2⟩
  intro ops
  obtain ⟨u1, pos', u2⟩ := huse ops r' _ g1
  refine ⟨u1, ?_⟩
  intro s
  have hend : (i.payloadIdx + i.payloadLen).toNat = (Spec.Mqtt.packet 3 flags body).length := by
    rw [UInt16.toNat_add, j3, j4]; omega
  have hdone : (Mqtt.publishDoneProg dbg i).run cursorOps ⟨D, pos'⟩ = (.ok (), ⟨D, (Spec.Mqtt.packet 3 flags body).length⟩) := by
    unfold Mqtt.publishDoneProg
    rw [if_neg (by rw [j3, j4]; omega), cur_seekStart (by rw [hend]; omega), hend]
  obtain ⟨rr2, e1, e2, -⟩ := u2.run dbg _ hdone
  obtain ⟨c2, e3, e4⟩ := done_run (ε := Error) (c := { c with tls := c1 }) h.holds e2 s
  dsimp only at e4
  rw [hp, List.drop_left] at e4
  refine ⟨c2, ?_, e4⟩
  have ho : onPublish dbg (useReader dbg i ops r').2 (Mqtt.publishDoneProg dbg i) = .ok ((), rr2) := by
    unfold onPublish
    rw [e1]
  unfold publishDone
  rw [ho]
  exact (X.bind_ok (show (X.ofExcept (.ok ((), rr2)) : X Error (World × Client x) _) (s, _) = (.ok ((), rr2), (s, _)) from rfl)).trans e3

/-! ## Packets that are not allowed -/

/-- The negation of C50 over TLS: a CONNACK received when none is expected makes `process` return a protocol error, but the client is not
reset and still holds the packet, so that every further call does the same. -/
theorem C91_unexpected_connack_not (dbg : Bool) (fuel : Nat) (rng : Rng x) (secs : UInt32) (w w1 : World) (c : Client x) (c1 : Tls.Client x) (D : Bytes)
    (h : Gives dbg fuel rng secs w c.tls w1 c1 D) (hc : c.state ≠ .waitConAck) (sp code : UInt8) (props : Bytes)
    (hp : Spec.Mqtt.connack sp code props <+: D) :
    process dbg fuel worldBus rng secs (w, c) = (.error (.err (.mqtt .protocol)), (w1, { c with tls := c1 })) := by
  obtain ⟨hsmall, rest, hD, hin⟩ := packet_in dbg secs (s := w1) (c := { c with tls := c1 }) h.holds 2 0 _ hp
  have hnib : Mqtt.CtrlPkt.ofNibble (UInt8.ofNat (2 * 16 + 0) >>> 4) = .connack := by decide
  have hbd : Mqtt.recvBody c.state (Mqtt.header 2 0 ([sp, code] ++ (Spec.Mqtt.vbi props.length ++ props))) = pure (.bad .protocol false) := by
    unfold Mqtt.recvBody Mqtt.header
    dsimp only
    rw [hnib]
    unfold Mqtt.recvConnAck
    rw [if_pos hc]
  obtain ⟨r', -, g⟩ := hin (.bad .protocol false) _ (by rw [hbd]; rfl)
  rw [h.receive, g]
  rfl

/-- The negation of C70 over TLS: a remaining length with four continuation bits, which is not allowed, is taken for an incomplete packet:
the client reports nothing and consumes nothing, however much is received. -/
theorem C91_malformed_not (dbg : Bool) (fuel : Nat) (rng : Rng x) (secs : UInt32) (w w1 : World) (c : Client x) (c1 : Tls.Client x) (D : Bytes)
    (h : Gives dbg fuel rng secs w c.tls w1 c1 D) (hto : c.timeout = none)
    (b0 b1 b2 b3 b4 : UInt8) (h1 : 128 ≤ b1.toNat) (h2 : 128 ≤ b2.toNat) (h3 : 128 ≤ b3.toNat) (h4 : 128 ≤ b4.toNat)
    (hp : [b0, b1, b2, b3, b4] <+: D) :
    process dbg fuel worldBus rng secs (w, c) = (.ok .none, (w1, { c with tls := c1 })) := by
  obtain ⟨rest, hrest⟩ := hp
  obtain ⟨cur, hm⟩ := recv_malformed dbg c.state b0 b1 b2 b3 b4 rest h1 h2 h3 h4
  change (Mqtt.recvProg dbg c.state).run cursorOps ⟨[b0, b1, b2, b3, b4] ++ rest, 0⟩ = _ at hm
  rw [hrest] at hm
  have hd := data_run dbg secs (s := w1) (c := { c with tls := c1 }) h.holds
  obtain ⟨r', -, g⟩ := (hd.2 (by rw [← hrest]; simp)).1 _ _ hm
  have e : process dbg fuel worldBus rng secs (w, c) = checkTimeout dbg secs (w1, { c with tls := c1 }) := h.receive.trans (g.trans rfl)
  obtain ⟨i1, i2⟩ := checkTimeout_idle dbg secs w1 { c with tls := c1 }
  obtain ⟨a1, a2⟩ := i2.1 hto
  rw [e]
  exact Prod.ext a1 (Prod.ext i1 a2)

/-- C91 for the other malformed packets: a remaining length of 65536 or more, or the reserved packet type 0, is reported as a decoding
error and the state is reset; nothing is consumed.  Missing: see `C91_malformed_not`. -/
theorem C91_malformed_partial (dbg : Bool) (fuel : Nat) (rng : Rng x) (secs : UInt32) (w w1 : World) (c : Client x) (c1 : Tls.Client x) (D : Bytes)
    (h : Gives dbg fuel rng secs w c.tls w1 c1 D) (bs : Bytes) (hp : bs <+: D)
    (hbad : (∃ b0 v n, bs = b0 :: v ∧ Spec.Mqtt.IsVbi v n ∧ v.length ≤ 4 ∧ 65535 < n) ∨
      (∃ flags body, flags < 16 ∧ bs = Spec.Mqtt.packet 0 flags body)) :
    process dbg fuel worldBus rng secs (w, c) =
      (.error (.err (.mqtt .decode)), (w1, { c with tls := c1, state := .init, timeout := none })) := by
  rcases hbad with ⟨b0, v, n, rfl, hv, hl, hn⟩ | ⟨flags, body, hf, rfl⟩
  · obtain ⟨rest, hrest⟩ := hp
    obtain ⟨cur, hm⟩ := recv_long dbg c.state b0 v rest n hv hl hn
    rw [← List.cons_append, hrest] at hm
    have hd := data_run dbg secs (s := w1) (c := { c with tls := c1 }) h.holds
    obtain ⟨r', -, g⟩ := (hd.2 (by rw [← hrest]; simp)).1 _ _ hm
    exact h.receive.trans (g.trans rfl)
  · obtain ⟨hsmall, rest, hD, hin⟩ := packet_in dbg secs (s := w1) (c := { c with tls := c1 }) h.holds 0 flags _ hp
    have hbd : Mqtt.recvBody c.state (Mqtt.header 0 flags body) = pure (.bad .decode true) := by
      have hnib := nibble_eq 0 flags (by omega) hf .reserved rfl
      unfold Mqtt.recvBody Mqtt.header
      dsimp only
      rw [hnib]
    obtain ⟨r', -, g⟩ := hin (.bad .decode true) _ (by rw [hbd]; rfl)
    exact h.receive.trans (g.trans rfl)

/-! ## From the record to the message -/

/-- C91 from the record to the message: a PUBLISH packet whose last part is the content of a record that has arrived, protected by the
server with the next sequence number (and whose first part the client already holds, perhaps nothing), is reported by the next call of
`process`, with its topic and payload; nothing is sent.  (In a debug build an assertion about the status of the socket may fail.) -/
theorem C91_record (hx : x.Standard) (dbg : Bool) (fuel : Nat) (rng : Rng x) (secs : UInt32) (w : World) (c : Client x) (t : Bytes) (p : Nat)
    (unread content : Bytes) (hr : Tls.Ready w c.tls t p unread) (hi : Tls.Quiet w c.tls)
    (ha : Spec.Tls.protect t c.tls.ks.readSeq.toNat 23 content <+: (w.chip.received c.tls.sn.toU8.toNat).drop p)
    (hs : content.length + 17 ≤ c.tls.recordSizeLimit.toNat) (hfit : unread.length + content.length + 2 ≤ c.tls.rx.n)
    (topic payload props rest : Bytes) (flags : Nat) (hf : flags < 16) (hl : props.length < 128)
    (hp : unread ++ content = Spec.Mqtt.publish topic payload props flags ++ rest) :
    let r := process dbg fuel worldBus rng secs (w, c)
    (dbg = true ∧ r.1 = .error (.stop .panic)) ∨
    ∃ w1 c1, Published dbg c1 w1 topic payload rest r ∧ w1.chip.sent = w.chip.sent ∧
      c1 = { c with tls := { c.tls with rx := c1.tls.rx, ks := { c.tls.ks with readSeq := c.tls.ks.readSeq + 1 } } } ∧
      RxState w1.chip c.tls.sn.toU8.toNat (p + 5 + (content.length + 17)) := by
  intro r
  rcases Tls.C83_delivery hx dbg fuel rng secs w c.tls t p unread content hr hi ha hs hfit with ⟨h1, h2⟩ | h
  · left
    refine ⟨h1, ?_⟩
    show (process dbg fuel worldBus rng secs (w, c)).1 = _
    unfold process
    rw [X.bind_error (onTls_error (f := mapProcessErr) (c := c) (Prod.ext h2 rfl))]
    rfl
  · right
    have hg : Gives dbg fuel rng secs w c.tls _ _ (unread ++ content) := ⟨.inl (Prod.ext h.event rfl), h.holds⟩
    refine ⟨_, _, C91_publish dbg fuel rng secs w _ c _ _ hg topic payload props rest flags hf hl hp, h.sent, ?_, h.rx⟩
    dsimp only
    rw [← h.keys]
    have := h.same
    generalize (Tls.process dbg fuel worldBus rng secs (w, c.tls)).2.2 = q at this ⊢
    rw [← this]

/-! ## The hypotheses are met -/

namespace Witness
open Verif.Tls.Witness

/-- The device after the server sent a record with this content. -/
def device (content : Bytes) : World := Thm.tcpWorld 0 (Spec.Tls.protect serverApp 0 23 content)

theorem gives (content : Bytes) (h : content.length ≤ 400) : ∃ w1 c1, Gives false 3 rng 0 (device content) c5 w1 c1 content := by
  have hl : 417 ≤ c5.recordSizeLimit.toNat := by decide +kernel
  have hn : 402 ≤ c5.rx.n := by decide +kernel
  have hd := (Tls.C83_delivery standard false 3 rng 0 (device content) c5 serverApp 0 [] content
    (ready _ (record_length _ _ _ _ (by omega))) (peace _).quiet
    List.prefix_rfl (by omega) (by simp; omega)).resolve_left (fun h => absurd h.1 (by decide))
  exact ⟨_, _, .inl (Prod.ext hd.event rfl), hd.holds⟩

/-- A client that waits for CONNACK. -/
def waiting : Client X := { client with state := .waitConAck, timeout := some 0 }

/-- A CONNACK that accepts and one that refuses, with a property byte, and another byte after it. -/
example : (process false 3 worldBus rng 0 (device (Spec.Mqtt.connack 0 0 [7] ++ [0x30]), waiting)).1 = .ok .connAck ∧
    (process false 3 worldBus rng 0 (device (Spec.Mqtt.connack 0 0x87 [7] ++ [0x30]), waiting)).1 =
      .error (.err (.mqtt (.connAck .notAuthorized))) := by
  have hl : ∀ code, (Spec.Mqtt.connack 0 code [7] ++ [0x30]).length ≤ 400 := fun code => by
    rw [Thm.connack_small _ _ _ (by decide)]; simp
  obtain ⟨w1, c1, h⟩ := gives _ (hl 0)
  obtain ⟨w2, c2, h'⟩ := gives _ (hl 0x87)
  exact ⟨((connack_in false 3 rng 0 _ w1 waiting c1 _ h rfl 0 0 _ (List.prefix_append _ _)).2.1 rfl).1,
    ((connack_in false 3 rng 0 _ w2 waiting c2 _ h' rfl 0 0x87 _ (List.prefix_append _ _)).2.2 (by decide)).2.1 .notAuthorized rfl⟩

/-- A SUBACK and an UNSUBACK with a property byte. -/
example : (process false 3 worldBus rng 0 (device (Spec.Mqtt.ack 9 258 [7] [SubAckReasonCode.notAuthorized.code] ++ [0x30]), client)).1 =
      .ok (.subAck 258 .notAuthorized) ∧
    (process false 3 worldBus rng 0 (device (Spec.Mqtt.ack 11 258 [7] [UnSubAckReasonCode.noSubscriptionExisted.code] ++ [0x30]), client)).1 =
      .ok (.unSubAck 258 .noSubscriptionExisted) := by
  have hl : ∀ t code, (Spec.Mqtt.ack t 258 [7] [code] ++ [0x30]).length ≤ 400 := fun t code => by
    rw [Thm.ack_small _ _ _ _ (by simp)]; simp
  obtain ⟨w1, c1, h⟩ := gives _ (hl 9 SubAckReasonCode.notAuthorized.code)
  obtain ⟨w2, c2, h'⟩ := gives _ (hl 11 UnSubAckReasonCode.noSubscriptionExisted.code)
  exact ⟨(C91_suback_partial false 3 rng 0 _ w1 client c1 _ h 258 .notAuthorized [7] [0x30] (by decide) rfl).1,
    (C91_unsuback_partial false 3 rng 0 _ w2 client c2 _ h' 258 .noSubscriptionExisted [7] [0x30] (by decide) rfl).1⟩

/-- A CONNACK with 130 bytes of properties, of which a byte is left, and a SUBACK with 129 bytes, whose reason code is not reported. -/
example : (∃ left, left ≠ [] ∧ Tls.Holds (process false 3 worldBus rng 0 (device (Spec.Mqtt.connack 0 0 (List.replicate 130 7)), waiting)).2.2.tls left) ∧
    (process false 3 worldBus rng 0 (device (Spec.Mqtt.ack 9 258 (List.replicate 128 7 ++ [SubAckReasonCode.quotaExceeded.code])
      [SubAckReasonCode.notAuthorized.code]), client)).1 = .ok (.subAck 258 .quotaExceeded) := by
  obtain ⟨w1, c1, h⟩ := gives (Spec.Mqtt.connack 0 0 (List.replicate 130 7)) (by
    have h1 := Mqtt.vbi_length_le 130 (by decide)
    have h2 := Mqtt.vbi_length_le ([0, 0] ++ (Spec.Mqtt.vbi (List.replicate 130 (7 : UInt8)).length ++ List.replicate 130 7)).length (by simp; omega)
    simp [Spec.Mqtt.connack, Spec.Mqtt.packet] at h2 ⊢; omega)
  obtain ⟨w2, c2, h'⟩ := gives (Spec.Mqtt.ack 9 258 (List.replicate 128 7 ++ [SubAckReasonCode.quotaExceeded.code])
      [SubAckReasonCode.notAuthorized.code]) (by
    have h1 := Mqtt.vbi_length_le 129 (by decide)
    have h2 := Mqtt.vbi_length_le ((Spec.Mqtt.vbi 129).length + 133) (by omega)
    simp [Spec.Mqtt.ack, Spec.Mqtt.packet, Spec.Mqtt.u16] at h2 ⊢
    generalize (Spec.Mqtt.vbi 129).length = a at *
    rw [show a + 129 + 1 + 1 + 1 = a + 132 by omega]
    have h3 := Mqtt.vbi_length_le (a + 132) (by omega)
    omega)
  have h1 := (C91_connack_long_not false 3 rng 0 _ w1 waiting c1 _ h rfl 0 (List.replicate 130 7) [] (by simp) (by rw [List.append_nil])).2
  obtain ⟨left, h2, h3⟩ := h1
  refine ⟨⟨left, h2, ?_⟩, ?_⟩
  · have := h3.holds
    rw [List.append_nil] at this
    exact this
  · exact (C91_suback_props_not false 3 rng 0 _ w2 client c2 _ h' 258 .notAuthorized .quotaExceeded (List.replicate 128 7) [] (by simp) (by simp)
      (by rw [List.append_nil]; rfl)).1

/-- A PINGRESP, which is ignored. -/
example : (process false 3 worldBus rng 0 (device (Spec.Mqtt.packet 13 0 [] ++ [0x30]), client)).1 = .ok .none := by
  obtain ⟨w1, c1, h⟩ := gives (Spec.Mqtt.packet 13 0 [] ++ [0x30]) (by rw [Thm.packet_small _ _ _ (by decide)]; decide)
  obtain ⟨-, c2, h1, h2⟩ := C91_ignored false 3 rng 0 _ w1 client c1 _ h 13 0 [] [0x30] (by decide) (by decide) (by decide) rfl
  exact (h2.1 (by rw [h1.same]; rfl)).1

/-- A packet that has not arrived completely, for a client that waits. -/
example : ∃ n, n.toNat = 10 ∧ (process false 3 worldBus rng 0 (device [0x20, 5], waiting)).1 = .ok (.callAfter n) := by
  obtain ⟨w1, c1, h⟩ := gives [0x20, 5] (by decide)
  have hp : Spec.Mqtt.packet 2 0 [1, 2, 3, 4, 5] = [0x20, 5, 1, 2, 3, 4, 5] := Thm.packet_small _ _ _ (by decide)
  have := (C91_incomplete false 3 rng 0 _ w1 waiting c1 _ h 2 0 [1, 2, 3, 4, 5] (by decide) (by rw [hp]; exact ⟨[1, 2, 3, 4, 5], rfl⟩)
    (by rw [hp]; decide)).2.2
  obtain ⟨n, h1, h2, -⟩ := (this.2.1 0 rfl (by decide)).1 (by decide)
  exact ⟨n, h1, h2⟩

/-- A PUBLISH with a property byte, and the record that carries it. -/
theorem published_message : ∃ w1 c1, Published false c1 w1 [116, 117] [1, 2, 3] [0xD0]
    (process false 3 worldBus rng 0 (device (Spec.Mqtt.publish [116, 117] [1, 2, 3] [9] 1 ++ [0xD0]), client)) := by
  have hl : (Spec.Mqtt.publish [116, 117] [1, 2, 3] [9] 1 ++ [0xD0]).length = 12 := by
    unfold Spec.Mqtt.publish Spec.Mqtt.str Spec.Mqtt.u16
    have h : Spec.Mqtt.vbi ([9] : Bytes).length = [1] := Thm.vbi_small (by decide)
    rw [h, Thm.packet_small _ _ _ (by decide)]
    decide
  have h29 : 29 ≤ client.tls.recordSizeLimit.toNat := by decide +kernel
  have h14 : 14 ≤ client.tls.rx.n := by decide +kernel
  have h := C91_record standard false 3 rng 0 (device (Spec.Mqtt.publish [116, 117] [1, 2, 3] [9] 1 ++ [0xD0])) client serverApp 0 [] _
    (ready _ (record_length _ _ _ _ (by omega))) (peace _).quiet List.prefix_rfl (by omega) (by rw [hl]; exact h14)
    [116, 117] [1, 2, 3] [9] [0xD0] 1 (by decide) (by decide) rfl
  rcases h with ⟨h, -⟩ | ⟨w1, c1, h, -⟩
  · cases h
  · exact ⟨w1, c1, h⟩

/-- An unexpected CONNACK, and malformed packets. -/
example : (process false 3 worldBus rng 0 (device (Spec.Mqtt.connack 0 0 [7]), client)).1 = .error (.err (.mqtt .protocol)) ∧
    (process false 3 worldBus rng 0 (device [0x30, 0xFF, 0xFF, 0xFF, 0xFF, 1], client)).1 = .ok .none ∧
    (process false 3 worldBus rng 0 (device [0x30, 0xFF, 0xFF, 0xFF, 1], client)).1 = .error (.err (.mqtt .decode)) := by
  obtain ⟨w1, c1, h⟩ := gives (Spec.Mqtt.connack 0 0 [7]) (by rw [Thm.connack_small _ _ _ (by decide)]; decide)
  obtain ⟨w2, c2, h'⟩ := gives [0x30, 0xFF, 0xFF, 0xFF, 0xFF, 1] (by decide)
  obtain ⟨w3, c3, h''⟩ := gives [0x30, 0xFF, 0xFF, 0xFF, 1] (by decide)
  refine ⟨?_, ?_, ?_⟩
  · rw [C91_unexpected_connack_not false 3 rng 0 _ w1 client c1 _ h (by decide) 0 0 [7] List.prefix_rfl]
  · rw [C91_malformed_not false 3 rng 0 _ w2 client c2 _ h' rfl 0x30 0xFF 0xFF 0xFF 0xFF (by decide) (by decide) (by decide) (by decide) ⟨[1], rfl⟩]
  · rw [C91_malformed_partial false 3 rng 0 _ w3 client c3 _ h'' [0x30, 0xFF, 0xFF, 0xFF, 1] List.prefix_rfl
      (.inl ⟨0x30, [0xFF, 0xFF, 0xFF, 1], 4194303, rfl,
        .more 0xFF (by decide) (.more 0xFF (by decide) (.more 0xFF (by decide) (.last 1 (by decide)))), by decide, by decide⟩)]

end Witness

end Verif.MqttTls
