import Verif.Thm.MqttOut
/-!
# Receiving MQTT packets on a world
-/
namespace Verif.Mqtt
open Verif Hl Spec Thm

theorem quiet_run (dbg : Bool) (fuel : Nat) (secs : UInt32) (w : World) (c : Client) (h : c.state ≠ .init)
    (hq : Spec.Mqtt.quiet (Spec.Mqtt.interrupts w.tick.chip c.sn.idx) = true) :
    ∃ w1, Calm c.sn.idx w w1 ∧ process dbg fuel worldBus secs (w, c) = receive dbg worldBus secs (w1, c) := by
  obtain ⟨w1, h1, h2⟩ := process_run dbg fuel secs w c h
  refine ⟨w1, h1, h2.trans ?_⟩
  unfold Spec.Mqtt.interrupts at hq
  obtain ⟨i1, i2, i3⟩ := ir_bits (w.tick.chip.mem (4 * c.sn.idx + 1) 2)
  simp [Spec.Mqtt.quiet] at hq
  unfold onInterrupt
  rw [i1, i2, i3, hq.1.1, hq.1.2, hq.2]
  rfl

theorem vbi_length_le (n : Nat) (h : n < 2097152) : (Spec.Mqtt.vbi n).length ≤ 3 := by
  rw [Spec.Mqtt.vbi.eq_1]
  split
  · simp
  · rw [Spec.Mqtt.vbi.eq_1]
    split
    · simp
    · rw [Spec.Mqtt.vbi.eq_1, if_pos (by omega)]; simp

/-- The fixed header of a packet of the specification, as the client decodes it. -/
def header (t f : Nat) (body : Bytes) : FixedHeader :=
  ⟨CtrlPkt.ofNibble (UInt8.ofNat (t * 16 + f) >>> 4), UInt8.ofNat (t * 16 + f) &&& 0xF, UInt16.ofNat body.length,
    UInt8.ofNat ((Spec.Mqtt.vbi body.length).length + 1)⟩

/-- A call of `process` whose reader saw a complete packet at its front: what the rest of the call does depends on the body alone. -/
def SeenPacket (dbg : Bool) (fuel : Nat) (secs : UInt32) (w : World) (c : Client) (base p t f : Nat) (body : Bytes) : Prop :=
  ∃ rest w2, Calm c.sn.idx w w2 ∧ (Spec.Mqtt.packet t f body ++ rest).length ≤ 32768 ∧
    (∀ out cur, (recvBody c.state (header t f body)).run cursorOps
        ⟨Spec.Mqtt.packet t f body ++ rest, 1 + (Spec.Mqtt.vbi body.length).length⟩ = (.ok out, cur) →
      ∃ r', r'.sn = c.sn ∧ RdRel (w2, r') cur base p p ∧
      process dbg fuel worldBus secs (w, c) = (recvFinish worldBus r' out >>= after dbg secs) (w2, c)) ∧
    (∀ e cur, (recvBody c.state (header t f body)).run cursorOps
        ⟨Spec.Mqtt.packet t f body ++ rest, 1 + (Spec.Mqtt.vbi body.length).length⟩ = (.error e, cur) →
      process dbg fuel worldBus secs (w, c) = (mapErr e, (w2, c)))

theorem seen_packet {dbg : Bool} {fuel : Nat} {secs : UInt32} {w w2 : World} {c : Client} {base p t f : Nat} {body D : Bytes}
    (hcalm : Calm c.sn.idx w w2) (h4 : D.length ≤ 32768) (hp : Spec.Mqtt.packet t f body <+: D)
    (h7 : ∀ out cur, (recvProg dbg c.state).run cursorOps ⟨D, 0⟩ = (.ok out, cur) →
      ∃ r', r'.sn = c.sn ∧ RdRel (w2, r') cur base p p ∧
      process dbg fuel worldBus secs (w, c) = (recvFinish worldBus r' out >>= after dbg secs) (w2, c))
    (h8 : ∀ e cur, (recvProg dbg c.state).run cursorOps ⟨D, 0⟩ = (.error e, cur) →
      process dbg fuel worldBus secs (w, c) = (mapErr e, (w2, c))) : SeenPacket dbg fuel secs w c base p t f body := by
  obtain ⟨rest, hrest⟩ := hp
  refine ⟨rest, w2, hcalm, ?_⟩
  rw [hrest]
  refine ⟨h4, ?_⟩
  have hD : D = UInt8.ofNat (t * 16 + f) :: (Spec.Mqtt.vbi body.length ++ (body ++ rest)) := by
    rw [← hrest]; simp [Spec.Mqtt.packet]
  have hlen : body.length ≤ 32768 := by rw [hD] at h4; simp at h4; omega
  have hc := recv_complete dbg c.state (UInt8.ofNat (t * 16 + f)) (Spec.Mqtt.vbi body.length) body rest (vbi_isVbi _)
    (by have := vbi_length_le body.length (by omega); omega) (by rw [← hD]; exact h4)
  rw [← hD] at hc
  rw [hc] at h7 h8
  exact ⟨h7, h8⟩

/-- Processing when a complete packet was received and there is no interrupt. -/
theorem packet_in (dbg : Bool) (fuel : Nat) (secs : UInt32) (w : World) (c : Client) (h : c.state ≠ .init)
    (hq : Spec.Mqtt.quiet (Spec.Mqtt.interrupts w.tick.chip c.sn.idx) = true) (base p : Nat) (hb : RxAt w.chip c.sn.idx base p)
    (t f : Nat) (body : Bytes) (hp : Spec.Mqtt.packet t f body <+: (w.chip.received c.sn.idx).drop p) :
    (∃ w1, process dbg fuel worldBus secs (w, c) = (.error .panic, (w1, c)) ∧ Calm c.sn.idx w w1 ∧ dbg = true) ∨
    SeenPacket dbg fuel secs w c base p t f body := by
  obtain ⟨w0, h0, hr⟩ := quiet_run dbg fuel secs w c h hq
  have hp0 := hp.trans (prefix_drop h0.recvd p)
  rcases receive_run dbg secs w0 c base p (h0.rx _ _ hb) with ⟨w1, h1, h2, h3⟩ | ⟨w1, h1, h2, h3⟩ | ⟨D, w1, w2, h1, h2, h3, h4, h5, h6, h7, h8⟩
  · exact .inl ⟨w1, hr.trans h1, h0.trans (h2.calm _), h3⟩
  · exfalso
    have hl := (hp0.trans (prefix_drop (h2.calm c.sn.idx).recvd p)).length_le
    simp [Spec.Mqtt.packet] at hl
    omega
  · right
    rw [← hr] at h7 h8
    exact seen_packet (h0.trans ((h1.trans h2).calm _)) h4 (hp0.trans h5) h7 h8

/-- `done` at the end of a packet. -/
theorem finish_done {w : World} {r : Ptrs} {cur : Cursor} {base p : Nat} (c : Client) (h : RdRel (w, r) cur base p p) (hs : r.sn = c.sn) :
    ∃ w', onBus (tcpReaderDone worldBus r) (w, c) = (.ok (), (w', c)) ∧ RxAt w'.chip c.sn.idx base (p + cur.pos) ∧ TxCalm c.sn.idx w w' ∧
      w.chip.received c.sn.idx <+: w'.chip.received c.sn.idx := by
  obtain ⟨w', h1, h2, h3, h4⟩ := tcpReaderDone_run h
  rw [hs] at h2 h3 h4
  exact ⟨w', onBus_ok h1, h2, h3, h4⟩

theorem checkTimeout_world (dbg : Bool) (secs : UInt32) (w : World) (c : Client) :
    (checkTimeout dbg secs (w, c)).2.1 = w := by
  unfold checkTimeout
  rw [M.bind_ok (show (getC : M (World × Client) Client) (w, c) = (.ok c, (w, c)) from rfl)]
  unfold Client.elapsedSecs
  cases c.timeout with
  | none => rfl
  | some t =>
    dsimp only
    split
    · rfl
    · rw [M.bind_ok (show (M.ofExcept (.ok (some (secs - t))) : M (World × Client) _) (w, c) = (.ok (some (secs - t)), (w, c)) from rfl)]
      dsimp only
      split <;> rfl

end Verif.Mqtt
