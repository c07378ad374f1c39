import Verif.Thm.MqttSession
import Verif.Thm.Connect
import Verif.Spec.MqttConnect
/-!
# C104: from a new client to a session
-/
namespace Verif.Thm
open Verif Hl Spec Verif.Mqtt
open Verif.Spec.MqttConnect (Poll poll polls)

theorem bit_or (x y : UInt8) : Spec.Mqtt.con (x ||| y) = (Spec.Mqtt.con x || Spec.Mqtt.con y) ∧
    Spec.Mqtt.discon (x ||| y) = (Spec.Mqtt.discon x || Spec.Mqtt.discon y) := by
  constructor
  · simp [Spec.Mqtt.con, bit]
  · simp [Spec.Mqtt.discon, bit]

theorem envStep_ir_or (c : Chip) (e : EnvStep) (k : Nat) : ∃ q, (c.envStep e).mem (4 * k + 1) 2 = c.mem (4 * k + 1) 2 ||| q ∧
    (∀ bits, e = .raise k bits → q = bits) ∧ ((∀ bits, e ≠ .raise k bits) → q = 0) := by
  have h0 : c.mem (4 * k + 1) 2 = c.mem (4 * k + 1) 2 ||| 0 := by simp
  cases e with
  | arrive j bs =>
    refine ⟨0, ?_, by simp, fun _ => rfl⟩
    rw [← h0]
    unfold Chip.envStep
    dsimp only
    split
    · dsimp only
      rw [ringWrite_other _ _ _ _ _ _ _ (by omega), setReg_ir _ _ _ _ _ (by omega), setReg_ir _ _ _ _ _ (by omega)]
    · rfl
  | status j s =>
    refine ⟨0, ?_, by simp, fun _ => rfl⟩
    rw [← h0]
    exact store_ir _ _ _ _ _ (by omega)
  | free j n =>
    refine ⟨0, ?_, by simp, fun _ => rfl⟩
    rw [← h0]
    exact setReg_ir _ _ _ _ _ (by omega)
  | raise j bits =>
    by_cases hj : j = k
    · subst hj
      refine ⟨bits, ?_, by simp, fun h => absurd rfl (h bits)⟩
      unfold Chip.envStep Mem.store
      dsimp only
      rw [if_pos ⟨rfl, rfl⟩]
    · refine ⟨0, ?_, by simp [hj], fun _ => rfl⟩
      rw [← h0]
      exact store_ir _ _ _ _ _ (by omega)

/-- What the environment raises is added to the interrupts. -/
theorem fold_ir (k : Nat) (es : List EnvStep) : ∀ c : Chip, ∃ q, (es.foldl Chip.envStep c).mem (4 * k + 1) 2 = c.mem (4 * k + 1) 2 ||| q ∧
    ((∀ bits, EnvStep.raise k bits ∈ es → Spec.Mqtt.quiet bits = true) → Spec.Mqtt.quiet q = true) ∧
    ((∃ bits, EnvStep.raise k bits ∈ es ∧ Spec.Mqtt.con bits = true) → Spec.Mqtt.con q = true) ∧
    ((∀ bits, EnvStep.raise k bits ∈ es → Spec.Mqtt.discon bits = false) → Spec.Mqtt.discon q = false) := by
  induction es with
  | nil => intro c; exact ⟨0, by simp, fun _ => by decide, by simp, fun _ => by decide⟩
  | cons e es ih =>
    intro c
    obtain ⟨q1, a1, a2, a3⟩ := envStep_ir_or c e k
    obtain ⟨q2, b1, b2, b3, b4⟩ := ih (c.envStep e)
    refine ⟨q1 ||| q2, by rw [List.foldl_cons, b1, a1, UInt8.or_assoc], fun h => ?_, ?_, fun h => ?_⟩
    · refine quiet_or ?_ (b2 fun bits hb => h bits (List.mem_cons_of_mem _ hb))
      by_cases hr : ∃ bits, e = .raise k bits
      · obtain ⟨bits, hr⟩ := hr
        rw [a2 bits hr]
        exact h bits (by rw [hr]; exact List.mem_cons_self)
      · rw [a3 fun bits hb => hr ⟨bits, hb⟩]; decide
    · rintro ⟨bits, hb, hc⟩
      rw [(bit_or q1 q2).1]
      rcases List.mem_cons.mp hb with hb | hb
      · rw [a2 bits hb.symm, hc]; rfl
      · rw [b3 ⟨bits, hb, hc⟩]; simp
    · rw [(bit_or q1 q2).2, b4 fun bits hb => h bits (List.mem_cons_of_mem _ hb)]
      by_cases hr : ∃ bits, e = .raise k bits
      · obtain ⟨bits, hr⟩ := hr
        rw [a2 bits hr, h bits (by rw [hr]; exact List.mem_cons_self)]
        rfl
      · rw [a3 fun bits hb => hr ⟨bits, hb⟩]; decide

/-- No CON, DISCON or TIMEOUT interrupt will be raised. -/
def NoMoreIr (k : Nat) (w : World) : Prop := ∀ es ∈ w.sched, ∀ bits, EnvStep.raise k bits ∈ es → Spec.Mqtt.quiet bits = true

theorem NoMoreIr.tick {k : Nat} {w : World} (h : NoMoreIr k w) :
    NoMoreIr k w.tick ∧ ∃ q, w.tick.chip.mem (4 * k + 1) 2 = w.chip.mem (4 * k + 1) 2 ||| q ∧ Spec.Mqtt.quiet q = true := by
  unfold World.tick
  split
  · exact ⟨h, 0, by simp, by decide⟩
  · rename_i es rest hs
    unfold NoMoreIr at h
    rw [hs] at h
    obtain ⟨q, h1, h2, -⟩ := fold_ir k es w.chip
    exact ⟨fun e he => h e (List.mem_cons_of_mem _ he), q, h1, h2 (h es List.mem_cons_self)⟩

theorem none_quiet : ∀ x : UInt8, (⟨x⟩ : SocketInterrupt).anyRaised = false → Spec.Mqtt.quiet x = true :=
  forall_u8 (p := fun x => (⟨x⟩ : SocketInterrupt).anyRaised = false → Spec.Mqtt.quiet x = true) (by decide +kernel)

/-- The interrupts that `process` sees are cleared. -/
theorem process_clears (dbg : Bool) (fuel : Nat) (secs : UInt32) (w : World) (c : Client) (h : c.state ≠ .init) (hn : NoMoreIr c.sn.idx w) :
    ∃ w1, Calm c.sn.idx w w1 ∧ Peace c.sn.idx w1 ∧ process dbg fuel worldBus secs (w, c) =
      onInterrupt dbg worldBus secs ⟨w.tick.chip.mem (4 * c.sn.idx + 1) 2⟩ (w1, c) := by
  have hg : (getC : M (World × Client) Client) (w, c) = (.ok c, (w, c)) := rfl
  have hn1 := hn.tick.1
  obtain ⟨hn2, q, hq1, hq2⟩ := hn1.tick
  unfold process
  rw [M.bind_ok hg, if_neg h, M.bind_ok (onBus_ok (run_snIr c.sn w))]
  generalize hx : w.tick.chip.mem (4 * c.sn.idx + 1) 2 = x at *
  cases ha : (⟨x⟩ : SocketInterrupt).anyRaised with
  | true =>
    obtain ⟨w1, h1, h2⟩ := calm_setSnIr c.sn (⟨x⟩ : SocketInterrupt).raw w.tick
    refine ⟨w1, (calm_tick _ w).trans h2, ?_, ?_⟩
    · rw [run_setSnIr] at h1
      injection h1 with _ h1
      rw [← h1]
      refine ⟨?_, hn2⟩
      dsimp only
      unfold Mem.store
      rw [if_pos ⟨rfl, rfl⟩, hq1]
      exact clear_quiet x q hq2
    · rw [if_pos rfl, M.bind_ok (onBus_ok h1)]
  | false =>
    obtain ⟨q1, q2, q3⟩ := quiet_of_none x ha
    refine ⟨w.tick, calm_tick _ w, ⟨by rw [hx]; exact none_quiet x ha, hn1⟩, ?_⟩
    rw [if_neg (by simp)]
    unfold onInterrupt
    rw [q1, q2, q3]; rfl

/-- Between two calls: nothing was consumed, the transmit side is idle, and no interrupt is pending. -/
structure Waits (k base : Nat) (w : World) : Prop where
  rx : RxAt w.chip k base 0
  tx : TxState w.chip k
  calm : Spec.Mqtt.quiet (w.chip.mem (4 * k + 1) 2) = true

theorem Waits.start {k base : Nat} {s : World × Client} (h : Waits k base s.1) (x : Poll) :
    RxAt (x.start s).chip k base 0 ∧ TxSame k s.1 (x.start s) ∧ (x.quiet k → Peace k (x.start s)) ∧
      s.1.chip.received k <+: (x.start s).chip.received k := by
  obtain ⟨w0, h1, h2, h3⟩ : ∃ w0 : World, w0.chip = s.1.chip ∧ s.1.pause x.before x.during = w0.tick ∧ w0.sched = x.before :: x.during :=
    ⟨{ s.1 with sched := x.before :: x.during }, rfl, rfl, rfl⟩
  unfold Poll.start
  rw [h2]
  have hb : RxAt w0.chip k base 0 := h1 ▸ h.rx
  have hc := txCalm_tick k w0
  refine ⟨hb.tick, ?_, fun hq => ?_, ?_⟩
  · rw [show s.1 = ({ w0 with sched := s.1.sched } : World) by rw [h1]]
    exact ⟨hc.tx, hc.free, hc.sent, hc.rxs, hc.txs, hc.dip, hc.dport⟩
  · refine Peace.tick ⟨?_, ?_⟩
    · rw [h1]; exact h.calm
    · rw [h3]; exact hq
  · rw [← h1]; exact tick_received_prefix w0 k

/-- A call while a packet is incomplete. -/
theorem wait_step (fuel : Nat) (x : Poll) (w : World) (c : Client) (base : Nat) (t : UInt32) (hst : c.state ≠ .init) (htm : c.timeout = some t)
    (h : Waits c.sn.idx base w) (hq : x.quiet c.sn.idx) (hw : x.within t) (type flags : Nat) (body : Bytes) (hl : body.length ≤ 65535)
    (hp : (poll fuel x (w, c)).2.1.chip.received c.sn.idx <+: Spec.Mqtt.packet type flags body)
    (hne : (poll fuel x (w, c)).2.1.chip.received c.sn.idx ≠ Spec.Mqtt.packet type flags body) :
    ∃ w', poll fuel x (w, c) = (x.again t, w', c) ∧ Waits c.sn.idx base w' ∧ TxSame c.sn.idx w w' := by
  obtain ⟨a1, a2, a3, -⟩ := Waits.start (s := (w, c)) h x
  have hpe := a3 hq
  unfold poll at hp hne ⊢
  obtain ⟨w2, b1, ⟨-, b2⟩ | b2⟩ := incomplete_in false fuel x.secs (x.start (w, c)) c 0 hst hpe.tick.now a1.state type flags body hl hp hne
  · cases b2
  · obtain ⟨e1, -, e2, -⟩ := checkTimeout_idle false x.secs w2 c
    obtain ⟨n, n1, n2, n3⟩ := (e2 t htm hw.1).1 (by have := hw.2; omega)
    have hn : n = 10 - (x.secs - t) := by
      apply UInt32.toNat_inj.mp
      have h1 := hw.1
      have h2 := hw.2
      have hs : (x.secs - t).toNat = x.secs.toNat - t.toNat := UInt32.toNat_sub_of_le _ _ (UInt32.le_iff_toNat_le.mpr h1)
      rw [UInt32.toNat_sub_of_le _ _ (UInt32.le_iff_toNat_le.mpr (by rw [hs]; show _ ≤ 10; omega)), hs, n1]
      rfl
    refine ⟨w2, ?_, ⟨b1.rx _ _ a1, b1.tx (a2.tx h.tx), (b1.peace hpe).now⟩, a2.trans b1.toTxSame⟩
    rw [b2]
    exact Prod.ext (by rw [n2, hn]; rfl) (Prod.ext e1 n3)

/-- Calls while a packet is incomplete. -/
theorem wait_steps (fuel : Nat) (c : Client) (base : Nat) (t : UInt32) (hst : c.state ≠ .init) (htm : c.timeout = some t)
    (type flags : Nat) (body : Bytes) (hl : body.length ≤ 65535) (xs : List Poll) : ∀ (w : World), Waits c.sn.idx base w →
    (∀ x ∈ xs, x.quiet c.sn.idx ∧ x.within t) →
    (∀ ys, ys <+: xs → ys ≠ [] → (polls fuel ys (w, c)).2.1.chip.received c.sn.idx <+: Spec.Mqtt.packet type flags body ∧
      (polls fuel ys (w, c)).2.1.chip.received c.sn.idx ≠ Spec.Mqtt.packet type flags body) →
    ∃ w', polls fuel xs (w, c) = (xs.map (Poll.again t), w', c) ∧ Waits c.sn.idx base w' ∧ TxSame c.sn.idx w w' := by
  induction xs with
  | nil => intro w h _ _; exact ⟨w, rfl, h, .refl _ _⟩
  | cons x xs ih =>
    intro w h hx hr
    obtain ⟨r1, r2⟩ := hr [x] ⟨xs, rfl⟩ (by simp)
    obtain ⟨w1, a1, a2, a3⟩ := wait_step fuel x w c base t hst htm h (hx x List.mem_cons_self).1 (hx x List.mem_cons_self).2 type flags body hl r1 r2
    obtain ⟨w2, b1, b2, b3⟩ := ih w1 a2 (fun y hy => hx y (List.mem_cons_of_mem _ hy)) (by
      intro ys hys hne
      have := hr (x :: ys) ((List.cons_prefix_cons).mpr ⟨rfl, hys⟩) (by simp)
      simp only [polls, a1] at this
      exact this)
    refine ⟨w2, ?_, b2, a3.trans b3⟩
    simp only [polls, a1, b1, List.map_cons]

theorem connect_length (n m : Nat) (id : Bytes) (h : id.length ≤ 23) : (Spec.Mqtt.connect n m id).length ≤ 100 := by
  unfold Spec.Mqtt.connect Spec.Mqtt.packet Spec.Mqtt.str Spec.Mqtt.u16
  rw [vbi_small (by simp; omega)]
  simp
  omega

theorem clientId_length {i : Bytes} (h : ∃ s, clientIdNew s = some i) : i.length ≤ 23 := by
  obtain ⟨s, hs⟩ := h
  unfold clientIdNew at hs
  split at hs
  · simp at hs
  · rename_i h1
    split at hs
    · simp at hs
    · simp at hs h1; subst hs; omega

/-- The call that finds the connection established. -/
theorem con_step (fuel : Nat) (x : Poll) (w : World) (c : Client) (base : Nat) (hst : c.state ≠ .init) (h : Waits c.sn.idx base w)
    (hfree : w.chip.txFsr c.sn.idx = w.chip.txSize c.sn.idx) (hx : x.connects c.sn.idx)
    (hrx : 65536 % w.chip.rxSize c.sn.idx = 0) (hrx' : w.chip.rxSize c.sn.idx ≤ 16384) (hid : ∀ i, c.clientId = some i → i.length ≤ 23) :
    ∃ w', poll fuel x (w, c) = (.ok (.ok (.callAfter 10)), w', { c with state := .waitConAck, timeout := some x.secs }) ∧
      Waits c.sn.idx base w' ∧ w'.chip.sent = w.chip.sent ++ [⟨c.sn.idx, w.chip.destIp c.sn.idx, w.chip.destPort c.sn.idx,
        Spec.Mqtt.connect 900 (w.chip.rxSize c.sn.idx) (c.clientId.getD [])⟩] := by
  obtain ⟨a1, a2, -, -⟩ := Waits.start (s := (w, c)) h x
  obtain ⟨hx1, hx2, hx3⟩ := hx
  have hnm : NoMoreIr c.sn.idx (x.start (w, c)) := hx3
  obtain ⟨q, c1, -, c2, c3⟩ := fold_ir c.sn.idx x.before w.chip
  have hir : (x.start (w, c)).chip.mem (4 * c.sn.idx + 1) 2 = w.chip.mem (4 * c.sn.idx + 1) 2 ||| q := c1
  obtain ⟨-, q', d1, d2⟩ := hnm.tick
  obtain ⟨w1, hw, hpe, hp⟩ := process_clears false fuel x.secs (x.start (w, c)) c hst hnm
  obtain ⟨i1, i2, i3⟩ := ir_bits ((x.start (w, c)).tick.chip.mem (4 * c.sn.idx + 1) 2)
  have hnot : ∀ y, Spec.Mqtt.quiet y = true → Spec.Mqtt.discon y = false := by
    intro y hy
    unfold Spec.Mqtt.quiet at hy
    simp only [Bool.and_eq_true, Bool.not_eq_true'] at hy
    exact hy.1.2
  have hcon : Spec.Mqtt.con ((x.start (w, c)).tick.chip.mem (4 * c.sn.idx + 1) 2) = true := by
    rw [d1, hir, (bit_or _ _).1, (bit_or _ _).1, c2 hx1]; simp
  have hdis : Spec.Mqtt.discon ((x.start (w, c)).tick.chip.mem (4 * c.sn.idx + 1) 2) = false := by
    rw [d1, hir, (bit_or _ _).2, (bit_or _ _).2, c3 hx2, hnot _ h.calm, hnot _ d2]; rfl
  have hs1 := a2.trans hw.toTxSame
  obtain ⟨w', m, k1, k2, k3⟩ := sendConnect_run x.secs w1 c (hs1.tx h.tx) hid
  have hm : m = w.chip.rxSize c.sn.idx := by
    rw [hs1.rxs] at k2; exact k2 hrx hrx'
  have hr : poll fuel x (w, c) = (sendConnect worldBus x.secs >>= fun x => pure (x.map .callAfter)) (w1, c) := by
    unfold poll
    refine hp.trans ?_
    unfold onInterrupt
    rw [i1, i2, hdis, hcon]
    rfl
  subst hm
  rcases k3 with ⟨k3, k4, k5⟩ | ⟨-, -, k5⟩
  · refine ⟨w', ?_, ⟨k1.rx _ _ (hw.rx _ _ a1), k4, (k1.peace hpe).now⟩, ?_⟩
    · rw [hr, M.bind_ok k3]; rfl
    · rw [k5, hs1.sent, hs1.dip, hs1.dport]
  · exfalso
    have h1 : w.chip.txFsr c.sn.idx ≤ w1.chip.txFsr c.sn.idx := hs1.free h.tx
    have h2 : (c.clientId.getD []).length ≤ 23 := by
      cases hc : c.clientId with
      | none => simp
      | some i => exact hid i hc
    have h3 := connect_length 900 (w.chip.rxSize c.sn.idx) _ h2
    have h4 := h.tx.size_dvd
    have h5 : 1024 ≤ w.chip.txSize c.sn.idx := by
      unfold Chip.txSize at h4 ⊢
      by_cases hz : (w.chip.mem (4 * c.sn.idx + 1) 0x1F).toNat = 0
      · rw [hz] at h4; simp at h4
      · omega
    omega

/-- C104: a client that has not begun connects to a broker that answers.  The first call of `process` opens the socket; the calls before
the connection is established ask to be called again at the end of the ten seconds of the TCP timeout; the call that finds it established
sends exactly one packet, the CONNECT packet of the client, to the broker; the calls before the CONNACK is complete ask to be called again
at the end of the ten seconds of the CONNACK timeout, however the CONNACK is cut into pieces; and the call after its last byte
reports the connection.  The client is then ready, has no timeout, and meets the hypotheses of C103, for the bytes after the CONNACK.
(Release build: in a debug build `process` may end in the debug assertions about the socket.) -/
theorem C104_connects (fuel : Nat) (w : World) (c : Client) (first : UInt32) (waits1 : List Poll) (con : Poll) (waits2 : List Poll) (ack : Poll)
    (sp : UInt8) (props : Bytes)
    (hst : c.state = .init) (hf : 1 ≤ fuel) (hsz : Sizes w.chip c.sn.toU8.toNat) (hrs : w.chip.rxSize c.sn.toU8.toNat ≤ 16384)
    (hid : ∀ i, c.clientId = some i → ∃ s, clientIdNew s = some i) (hsteady : Steady c.sn.toU8.toNat w)
    (hq0 : Spec.Mqtt.quiet (Spec.Mqtt.interrupts w.chip c.sn.toU8.toNat) = true)
    (hq1 : ∀ es ∈ w.sched, ∀ bits, EnvStep.raise c.sn.toU8.toNat bits ∈ es → Spec.Mqtt.quiet bits = true)
    (hl : (Spec.Mqtt.connack sp 0 props).length ≤ 65535) :
    let k := c.sn.toU8.toNat
    let r := process false fuel worldBus first (w, c)
    let s1 := polls fuel waits1 r.2
    let s2 := poll fuel con s1.2
    let s3 := polls fuel waits2 s2.2
    let s4 := poll fuel ack s3.2
    (∀ x ∈ waits1, x.quiet k ∧ x.within first) →
    (∀ ys, ys <+: waits1 → ys ≠ [] → (polls fuel ys r.2).2.1.chip.received k = []) →
    con.connects k →
    (∀ x ∈ waits2, x.quiet k ∧ x.within con.secs) →
    (∀ ys, ys <+: waits2 → ys ≠ [] → (polls fuel ys s2.2).2.1.chip.received k <+: Spec.Mqtt.connack sp 0 props ∧
      (polls fuel ys s2.2).2.1.chip.received k ≠ Spec.Mqtt.connack sp 0 props) →
    ack.quiet k → Spec.Mqtt.connack sp 0 props <+: (ack.start s3.2).chip.received k →
    r.1 = .ok (.ok (.callAfter 10)) ∧ s1.1 = waits1.map (Poll.again first) ∧
    s2.1 = .ok (.ok (.callAfter 10)) ∧ s3.1 = waits2.map (Poll.again con.secs) ∧ s4.1 = .ok (.ok .connAck) ∧
    s4.2.2 = { c with state := .ready, timeout := none } ∧
    s4.2.1.chip.sent = w.chip.sent ++
      [⟨k, c.server.ip.octets, c.server.port.toNat, Spec.Mqtt.connect 900 (w.chip.rxSize k) (c.clientId.getD [])⟩] ∧
    Spec.Mqtt.quiet (Spec.Mqtt.interrupts s4.2.1.chip k) = true ∧
    (props.length < 125 → RxState s4.2.1.chip k (Spec.Mqtt.connack sp 0 props).length) := by
  intro k r s1 s2 s3 s4 h1 h2 h3 h4 h5 h6 h7
  have hpk : Spec.Mqtt.connack sp 0 props = Spec.Mqtt.packet 2 0 ([sp, 0] ++ (Spec.Mqtt.vbi props.length ++ props)) := by
    unfold Spec.Mqtt.connack; simp
  have hbl : ([sp, 0] ++ (Spec.Mqtt.vbi props.length ++ props)).length ≤ 65535 := by
    rw [hpk] at hl
    unfold Spec.Mqtt.packet at hl
    simp only [List.length_append, List.length_cons] at hl ⊢
    omega
  have hnil : ([] : Bytes) ≠ Spec.Mqtt.packet 2 0 ([sp, 0] ++ (Spec.Mqtt.vbi props.length ++ props)) := by
    unfold Spec.Mqtt.packet; simp
  obtain ⟨a1, a2, a3, a4, a5, a6⟩ := (mqtt_connect_run false fuel first w c hst hf hsteady hsz).resolve_left (fun h => absurd h.1 (by decide))
  have hpe := a5 ⟨hq0, hq1⟩
  obtain ⟨w1, hw1⟩ : ∃ w1 : World, r.2.1 = w1 := ⟨_, rfl⟩
  have hr2 : r.2 = (w1, { c with state := .waitConInt, timeout := some first }) := Prod.ext hw1 a2
  change Connecting w.chip r.2.1.chip k c.srcPort c.server 0xEF at a3
  change r.2.1.chip.rxSize k = w.chip.rxSize k at a4
  change Peace k r.2.1 at hpe
  change r.2.1.chip.sent = w.chip.sent at a6
  rw [hw1] at a3 a4 a6 hpe
  obtain ⟨base, hb⟩ := a3.rx.at
  -- Before the connection is established.
  have hwt : Waits k base w1 := ⟨hb, a3.tx, hpe.now⟩
  obtain ⟨w2, b1, b2, b3⟩ := wait_steps fuel { c with state := .waitConInt, timeout := some first } base first (by simp) rfl 2 0 _ hbl waits1 w1 hwt h1 (by
    intro ys hys hne
    have := h2 ys hys hne
    rw [hr2] at this
    change ((polls fuel ys (w1, { c with state := .waitConInt, timeout := some first })).2.1.chip.received k) <+: _ ∧
      ((polls fuel ys (w1, { c with state := .waitConInt, timeout := some first })).2.1.chip.received k) ≠ _
    rw [this]
    exact ⟨List.nil_prefix, hnil⟩)
  change Waits k base w2 at b2
  change TxSame k w1 w2 at b3
  have hs1 : s1 = (waits1.map (Poll.again first), w2, { c with state := .waitConInt, timeout := some first }) := by
    show polls fuel waits1 r.2 = _
    rw [hr2, b1]
  -- The connection is established.
  have hfree : w2.chip.txFsr k = w2.chip.txSize k := by
    have e1 := b3.free a3.tx
    have e2 := b2.tx.fsr_le
    have e3 := a3.free
    have e4 := b3.txs
    omega
  have hrx2 : w2.chip.rxSize k = w.chip.rxSize k := b3.rxs.trans a4
  obtain ⟨w3, c1, c2, c3⟩ := con_step fuel con w2 { c with state := .waitConInt, timeout := some first } base (by simp) b2 hfree h3
    (by show 65536 % w2.chip.rxSize k = 0; rw [hrx2]; exact hsz.rx_dvd) (by show w2.chip.rxSize k ≤ _; rw [hrx2]; exact hrs)
    (fun i hi => clientId_length (hid i hi))
  change Waits k base w3 at c2
  have hs2 : s2 = (.ok (.ok (.callAfter 10)), w3, { c with state := .waitConAck, timeout := some con.secs }) := by
    show poll fuel con s1.2 = _
    rw [hs1, c1]
  have hsent3 : w3.chip.sent = w.chip.sent ++
      [⟨k, c.server.ip.octets, c.server.port.toNat, Spec.Mqtt.connect 900 (w.chip.rxSize k) (c.clientId.getD [])⟩] := by
    obtain ⟨d1, d2⟩ := a3.regs.dest _ _ rfl
    change w3.chip.sent = w2.chip.sent ++ [⟨k, w2.chip.destIp k, w2.chip.destPort k, Spec.Mqtt.connect 900 (w2.chip.rxSize k) (c.clientId.getD [])⟩] at c3
    rw [c3, b3.sent, a6, b3.dip, b3.dport, d1, d2, hrx2]
  -- Before the CONNACK is complete.
  obtain ⟨w4, d1, d2, d3⟩ := wait_steps fuel { c with state := .waitConAck, timeout := some con.secs } base con.secs (by simp) rfl 2 0 _ hbl waits2 w3 c2 h4 (by
    intro ys hys hne
    have := h5 ys hys hne
    rw [hs2, hpk] at this
    exact this)
  change Waits k base w4 at d2
  change TxSame k w3 w4 at d3
  have hs3 : s3 = (waits2.map (Poll.again con.secs), w4, { c with state := .waitConAck, timeout := some con.secs }) := by
    show polls fuel waits2 s2.2 = _
    rw [hs2, d1]
  -- The CONNACK is complete.
  obtain ⟨e1, e2, e3, -⟩ := Waits.start (s := (w4, { c with state := .waitConAck, timeout := some con.secs })) d2 ack
  have hpe4 := e3 h6
  rw [hs3, hpk] at h7
  have hs4 : s4 = process false fuel worldBus ack.secs (ack.start (w4, { c with state := .waitConAck, timeout := some con.secs }),
      { c with state := .waitConAck, timeout := some con.secs }) := by
    show poll fuel ack s3.2 = _
    rw [hs3]; rfl
  obtain ⟨f1, f2, f3, -, f4, -⟩ := (connack_calm false fuel ack.secs (ack.start (w4, { c with state := .waitConAck, timeout := some con.secs }))
    { c with state := .waitConAck, timeout := some con.secs } 0 rfl hpe4.tick.now e1.state sp 0 _ h7).resolve_left (fun h => absurd h.2.1 (by decide))
  rw [← hs4] at f1 f2 f3 f4
  refine ⟨a1, by rw [hs1], by rw [hs2], by rw [hs3], (f3 rfl).1, (f3 rfl).2, ?_, (f4.peace hpe4).now, fun hp => ?_⟩
  · rw [f2, e2.sent, d3.sent, hsent3]
  · have hlen : (Spec.Mqtt.connack sp 0 props).length = 0 + ((Spec.Mqtt.vbi props.length ++ props).length + 4) := by
      rw [hpk, packet_small _ _ _ (by rw [vbi_small (by omega)]; simp; omega)]
      simp
    rw [hlen]
    exact f1

/-- C104 is not vacuous: a chip after reset, with some interrupt of another socket; the connection is established five seconds after the
first call, one byte of the CONNACK arrives while the CONNECT is sent, three more while the next call runs, and the last after it. -/
def conWorld : World := { sampleWorld with sched := [[], [.raise 2 1]] }
def conClient : Client := { Client.new .sn3 4000 ⟨⟨10, 0, 0, 1⟩, 1883⟩ with clientId := some [97, 98] }
def conWaits1 : List Poll := [⟨[], 8, []⟩, ⟨[.raise 3 4], 9, []⟩]
def conCon : Poll := ⟨[.status 3 0x17, .raise 3 1], 12, [[], [], [], [.arrive 3 [0x20]]]⟩
def conWaits2 : List Poll := [⟨[], 13, [[], [.arrive 3 [3, 1, 0]]]⟩]
def conAck : Poll := ⟨[.arrive 3 [0], .raise 3 4], 22, []⟩
def conRun : Except Err (Except MErr Event) × World × Client := process false 1 worldBus 7 (conWorld, conClient)
def conRun1 : List (Except Err (Except MErr Event)) × World × Client := polls 1 conWaits1 conRun.2
def conRun2 : Except Err (Except MErr Event) × World × Client := poll 1 conCon conRun1.2
def conRun3 : List (Except Err (Except MErr Event)) × World × Client := polls 1 conWaits2 conRun2.2
def conRun4 : Except Err (Except MErr Event) × World × Client := poll 1 conAck conRun3.2
example : conClient.state = .init ∧ Sizes conWorld.chip 3 ∧ conWorld.chip.rxSize 3 ≤ 16384 ∧ clientIdNew [97, 98] = some [97, 98] ∧
    Spec.Mqtt.quiet (Spec.Mqtt.interrupts conWorld.chip 3) = true :=
  ⟨rfl, ⟨by decide +kernel, by decide +kernel, by decide +kernel, by decide +kernel⟩, by decide +kernel, by decide +kernel, by decide +kernel⟩
example : Steady 3 conWorld := by unfold Steady conWorld; simp
example : ∀ es ∈ conWorld.sched, ∀ bits, EnvStep.raise 3 bits ∈ es → Spec.Mqtt.quiet bits = true := by unfold conWorld; simp
example : ∀ x ∈ conWaits1, x.quiet 3 ∧ x.within 7 := by
  unfold conWaits1 Poll.quiet Poll.within; simp; decide
example : (polls 1 (conWaits1.take 1) conRun.2).2.1.chip.received 3 = [] ∧ (polls 1 conWaits1 conRun.2).2.1.chip.received 3 = [] := by
  decide +kernel
example : conCon.connects 3 := by
  unfold conCon Poll.connects
  exact ⟨⟨1, by decide, by decide⟩, by simp; decide, by simp⟩
example : ∀ x ∈ conWaits2, x.quiet 3 ∧ x.within 12 := by
  unfold conWaits2 Poll.quiet Poll.within; simp
theorem conConnack : Spec.Mqtt.connack 1 0 [] = [0x20, 3, 1, 0, 0] := by
  unfold Spec.Mqtt.connack
  rw [show Spec.Mqtt.vbi ([] : Bytes).length = [0] from vbi_small (by decide), packet_small _ _ _ (by decide)]
  decide
example : (polls 1 conWaits2 conRun2.2).2.1.chip.received 3 = [0x20, 3, 1, 0] ∧ conRun2.2.1.chip.received 3 = [0x20] := by decide +kernel
example : conAck.quiet 3 := by unfold conAck Poll.quiet; simp; decide
example : (conAck.start conRun3.2).chip.received 3 = [0x20, 3, 1, 0, 0] := by decide +kernel
example : conRun.1 = .ok (.ok (.callAfter 10)) ∧ conRun1.1 = [.ok (.ok (.callAfter 9)), .ok (.ok (.callAfter 8))] ∧
    conRun2.1 = .ok (.ok (.callAfter 10)) ∧ conRun3.1 = [.ok (.ok (.callAfter 9))] ∧ conRun4.1 = .ok (.ok .connAck) ∧
    conRun4.2.2 = { conClient with state := .ready, timeout := none } ∧ conRun4.2.1.chip.sent.length = 1 := by decide +kernel

end Verif.Thm
