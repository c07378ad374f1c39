import Verif.Thm.MqttSession
import Verif.Spec.MqttDuplex
/-!
# C105: a session in both directions
-/
namespace Verif.Thm
open Verif Hl Spec Verif.Mqtt
open Verif.Spec.MqttSession (Packet Seen Turn turn turns Shows)
open Verif.Spec.MqttDuplex (Request Act Done acts outgoing turnsOf seenOf)

/-- A request on an idle transmit buffer. -/
theorem request_step (x : Request) (w : World) (c : Client) (hc : c.state = .ready) (ht : TxState w.chip c.sn.idx) :
    let r := x.call (w, c)
    TxKept c.sn.idx w r.2.1 ∧ (∃ id, r.2.2 = { c with pktId := id }) ∧
      ((∃ id, r.1 = .ok (.ok id) ∧
        r.2.1.chip.sent = w.chip.sent ++ (x.packet id).map (⟨c.sn.idx, w.chip.destIp c.sn.idx, w.chip.destPort c.sn.idx, ·⟩)) ∨
       (r.1 = .ok (.error .outOfMemory) ∧ r.2.1.chip.sent = w.chip.sent)) := by
  have hcon : c.isConnected = true := by unfold Client.isConnected; rw [hc]; rfl
  cases x with
  | publish topic payload =>
    have hk := publish_kept topic payload w c hcon ht
    obtain ⟨h1, h2⟩ := C45_publish topic payload w c hcon ht
    unfold Request.call
    dsimp only
    refine ⟨hk, ⟨c.pktId, h1⟩, ?_⟩
    rcases h2 with ⟨h2, h3, -⟩ | ⟨h2, h3, -⟩
    · exact .inl ⟨none, by rw [h2]; rfl, h3⟩
    · exact .inr ⟨by rw [h2]; rfl, h3⟩
  | subscribe filter =>
    have hk := subscribe_kept false filter w c hcon ht
    unfold Request.call
    dsimp only
    refine ⟨hk, ?_⟩
    by_cases hf : filter = []
    · subst hf
      unfold subscribe
      rw [sendFilter_empty _ w c hcon ht]
      refine ⟨⟨_, rfl⟩, .inl ⟨some 0, rfl, ?_⟩⟩
      unfold Request.packet
      dsimp only
      rw [if_pos rfl]
      simp [tick_sent]
    · obtain ⟨h1, h2⟩ := C45_subscribe false filter w c hcon ht hf
      refine ⟨⟨_, h1⟩, ?_⟩
      rcases h2 with ⟨h2, h3, -⟩ | ⟨h2, h3, -⟩ | ⟨-, -, h2, -⟩
      · refine .inl ⟨some _, by rw [h2]; rfl, ?_⟩
        unfold Request.packet
        dsimp only
        rw [if_neg hf]
        exact h3
      · exact .inr ⟨by rw [h2]; rfl, h3⟩
      · cases h2
  | unsubscribe filter =>
    have hk := unsubscribe_kept false filter w c hcon ht
    unfold Request.call
    dsimp only
    refine ⟨hk, ?_⟩
    by_cases hf : filter = []
    · subst hf
      unfold unsubscribe
      rw [sendFilter_empty _ w c hcon ht]
      refine ⟨⟨_, rfl⟩, .inl ⟨some 0, rfl, ?_⟩⟩
      unfold Request.packet
      dsimp only
      rw [if_pos rfl]
      simp [tick_sent]
    · obtain ⟨h1, h2⟩ := C45_unsubscribe false filter w c hcon ht hf
      refine ⟨⟨_, h1⟩, ?_⟩
      rcases h2 with ⟨h2, h3, -⟩ | ⟨h2, h3, -⟩ | ⟨-, -, h2, -⟩
      · refine .inl ⟨some _, by rw [h2]; rfl, ?_⟩
        unfold Request.packet
        dsimp only
        rw [if_neg hf]
        exact h3
      · exact .inr ⟨by rw [h2]; rfl, h3⟩
      · cases h2

theorem Live.withId {c : Client} {base p : Nat} {w : World} (h : Live c base p w) (id : UInt16) : Live { c with pktId := id } base p w :=
  ⟨h.ready, h.none, h.rx, h.calm⟩

theorem duplex (fuel : Nat) (base : Nat) : ∀ (as : List Act) (w : World) (c : Client) (p : Nat) (xs : List Packet),
    Live c base p w → TxState w.chip c.sn.idx → (∀ a ∈ as, a.quiet c.sn.idx) → (∀ x ∈ xs, x.ok) →
    (∀ n, ((acts fuel (as.take n) (w, c)).2.1.chip.received c.sn.idx).drop p <+: xs.flatMap Packet.bytes) →
    ∃ n, n ≤ xs.length ∧ Shows (turnsOf as) (seenOf (acts fuel as (w, c)).1) (xs.take n) ∧
      (∃ id, (acts fuel as (w, c)).2.2 = { c with pktId := id }) ∧
      (∀ d ∈ (acts fuel as (w, c)).1, d.answered) ∧
      (acts fuel as (w, c)).2.1.chip.sent = w.chip.sent ++ (outgoing as (acts fuel as (w, c)).1).map
        (⟨c.sn.idx, w.chip.destIp c.sn.idx, w.chip.destPort c.sn.idx, ·⟩) ∧
      Live c base (p + ((xs.take n).flatMap Packet.bytes).length) (acts fuel as (w, c)).2.1 ∧
      TxState (acts fuel as (w, c)).2.1.chip c.sn.idx ∧
      ∀ m j, j ≤ xs.length → j ≤ (turnsOf (as.drop m)).length →
        (xs.take j).flatMap Packet.bytes <+: ((acts fuel (as.take m) (w, c)).2.1.chip.received c.sn.idx).drop p → j ≤ n := by
  intro as
  induction as with
  | nil =>
    intro w c p xs h ht _ _ _
    refine ⟨0, Nat.zero_le _, .nil, ⟨c.pktId, rfl⟩, nofun, by simp [acts, outgoing], h, ht, fun m j _ hm _ => ?_⟩
    simp [turnsOf] at hm; omega
  | cons a as ih =>
    intro w c p xs h ht hq hok hs
    have h1 := hs 1
    change ((a.run fuel (w, c)).2.1.chip.received c.sn.idx).drop p <+: _ at h1
    have hqa := hq a (List.mem_cons_self ..)
    cases a with
    | turn t =>
      change ((turn fuel t (w, c)).2.1.chip.received c.sn.idx).drop p <+: _ at h1
      obtain ⟨a1, a2, a3, a4⟩ := turn_step fuel t w c base p h hqa xs hok h1
      rcases hr : turn fuel t (w, c) with ⟨sn, w1, c1⟩
      have hT : ∀ us, acts fuel (.turn t :: us) (w, c) = (.seen sn :: (acts fuel us (w1, c1)).1, (acts fuel us (w1, c1)).2) := by
        intro us; rw [acts, Act.run, hr]
      rw [hr] at a1 a2 a3 a4
      dsimp only at a1 a2 a3 a4
      subst a1
      have hs' : ∀ n, ((acts fuel (as.take n) (w1, c1)).2.1.chip.received c1.sn.idx).drop p <+: xs.flatMap Packet.bytes := by
        intro n
        have := hs (n + 1)
        rw [List.take_succ_cons, hT] at this
        exact this
      have hq' : ∀ a ∈ as, a.quiet c1.sn.idx := fun t ht => hq t (List.mem_cons_of_mem _ ht)
      rcases a4 with ⟨rfl, b2, b3⟩ | ⟨x, xs', rfl, rfl, b3⟩
      · obtain ⟨n, c1', c2, c3, d1, c4, c5, d2, c6⟩ := ih w1 c1 p xs b2 (a2.tx ht) hq' hok hs'
        rw [hT]
        refine ⟨n, c1', .none c2, c3, ?_, ?_, c5, d2, fun m j hj hm hp => ?_⟩
        · intro d hd
          rcases List.mem_cons.mp hd with rfl | hd
          · trivial
          · exact d1 d hd
        · rw [c4, a2.sent, a2.dip, a2.dport]; rfl
        · cases m with
          | zero =>
            cases j with
            | zero => omega
            | succ j =>
              cases xs with
              | nil => simp at hj
              | cons x xs' =>
                rw [List.take_succ_cons, List.flatMap_cons] at hp
                exact absurd ((List.prefix_append _ _).trans hp) (b3 x xs' rfl)
          | succ m =>
            rw [List.take_succ_cons, hT] at hp
            exact c6 m j hj hm hp
      · obtain ⟨n, c1', c2, c3, d1, c4, c5, d2, c6⟩ := ih w1 c1 (p + x.bytes.length) xs' b3 (a2.tx ht) hq'
          (fun y hy => hok y (List.mem_cons_of_mem _ hy))
          (fun n => prefix_shorten (by have := hs' n; rwa [List.flatMap_cons] at this))
        rw [hT]
        refine ⟨n + 1, by simp; omega, .packet c2, c3, ?_, ?_, ?_, d2, fun m j hj hm hp => ?_⟩
        · intro d hd
          rcases List.mem_cons.mp hd with rfl | hd
          · trivial
          · exact d1 d hd
        · rw [c4, a2.sent, a2.dip, a2.dport]; rfl
        · rw [List.take_succ_cons, List.flatMap_cons, List.length_append, ← Nat.add_assoc]; exact c5
        · cases j with
          | zero => omega
          | succ j =>
            rw [List.take_succ_cons, List.flatMap_cons] at hp
            simp only [List.length_cons] at hj
            cases m with
            | zero =>
              have hm' : j + 1 ≤ (turnsOf as).length + 1 := hm
              have := c6 0 j (by omega) (by show j ≤ (turnsOf as).length; omega) (prefix_rest (hp.trans (_root_.Verif.prefix_drop a3 p)))
              omega
            | succ m =>
              rw [List.take_succ_cons, hT] at hp
              have hm' : j + 1 ≤ (turnsOf (as.drop m)).length := hm
              have := c6 m j (by omega) (by omega) (prefix_rest hp)
              omega
    | send before x during =>
      obtain ⟨q1, q2, q3, q4⟩ := pause_live (t := ⟨before, 0, during, []⟩) h hqa
      change Peace c.sn.idx (w.pause before during) at q1
      change RxAt (w.pause before during).chip c.sn.idx base p at q2
      change TxSame c.sn.idx w (w.pause before during) at q3
      change _ <+: (w.pause before during).chip.received c.sn.idx at q4
      obtain ⟨k1, ⟨id, k2⟩, k3⟩ := request_step x (w.pause before during) c h.ready (q3.tx ht)
      rcases hr : x.call (w.pause before during, c) with ⟨res, w1, c1⟩
      have hT : ∀ us, acts fuel (.send before x during :: us) (w, c) = (.sent res :: (acts fuel us (w1, c1)).1, (acts fuel us (w1, c1)).2) := by
        intro us; rw [acts, Act.run, hr]
      rw [hr] at k1 k2 k3
      dsimp only at k1 k2 k3
      subst k2
      have hs' : ∀ n, ((acts fuel (as.take n) (w1, { c with pktId := id })).2.1.chip.received c.sn.idx).drop p <+: xs.flatMap Packet.bytes := by
        intro n
        have := hs (n + 1)
        rw [List.take_succ_cons, hT] at this
        exact this
      have hlive : Live { c with pktId := id } base p w1 := ⟨h.ready, h.none, k1.rx _ _ q2, (k1.peace q1).now⟩
      obtain ⟨n, c1', c2, ⟨id', c3⟩, d1, c4, c5, d2, c6⟩ := ih w1 { c with pktId := id } p xs hlive (k1.idle (q3.tx ht))
        (fun t ht => hq t (List.mem_cons_of_mem _ ht)) hok hs'
      rw [hT]
      refine ⟨n, c1', c2, ⟨id', c3⟩, ?_, ?_, ⟨c5.ready, c5.none, c5.rx, c5.calm⟩, d2, fun m j hj hm hp => ?_⟩
      · intro d hd
        rcases List.mem_cons.mp hd with rfl | hd
        · rcases k3 with ⟨id, k3, -⟩ | ⟨k3, -⟩
          · exact .inl ⟨id, k3⟩
          · exact .inr k3
        · exact d1 d hd
      · dsimp only at c4 ⊢
        rw [c4, k1.destIp, k1.destPort, q3.dip, q3.dport]
        rcases k3 with ⟨id, k3, k4⟩ | ⟨k3, k4⟩
        · rw [k4, k3, q3.sent, q3.dip, q3.dport, List.append_assoc, ← List.map_append]; rfl
        · rw [k4, k3, q3.sent]; rfl
      · cases m with
        | zero =>
          exact c6 0 j hj hm (hp.trans (_root_.Verif.prefix_drop (q4.trans k1.recvd) p))
        | succ m =>
          rw [List.take_succ_cons, hT] at hp
          exact c6 m j hj hm hp

/-- C105: while a connection is neither closed nor lost, an application may publish, subscribe and unsubscribe between its calls of
`process`, in any order: every request is accepted or refused with OutOfMemory; to the broker go exactly the packets of the accepted
requests, each once and in order, with the identifiers that were returned; and the application sees exactly the packets the broker sent,
each once and in order, as in C103.  (Release build.)  Missing: what is missing in C103. -/
theorem C105_session_partial (fuel : Nat) (as : List Act) (w : World) (c : Client) (p : Nat) (xs : List Packet)
    (hready : c.state = .ready) (htime : c.timeout = none) (hrx : RxState w.chip c.sn.toU8.toNat p) (htx : TxState w.chip c.sn.toU8.toNat)
    (hq : Spec.Mqtt.quiet (Spec.Mqtt.interrupts w.chip c.sn.toU8.toNat) = true) (has : ∀ a ∈ as, a.quiet c.sn.toU8.toNat)
    (hok : ∀ x ∈ xs, x.ok)
    (hs : ∀ n, ((acts fuel (as.take n) (w, c)).2.1.chip.received c.sn.toU8.toNat).drop p <+: xs.flatMap Packet.bytes) :
    let k := c.sn.toU8.toNat
    let r := acts fuel as (w, c)
    ∃ n, n ≤ xs.length ∧ Shows (turnsOf as) (seenOf r.1) (xs.take n) ∧ (∀ d ∈ r.1, d.answered) ∧
      r.2.1.chip.sent = w.chip.sent ++ (outgoing as r.1).map (⟨k, w.chip.destIp k, w.chip.destPort k, ·⟩) ∧
      (∃ id, r.2.2 = { c with pktId := id }) ∧ RxState r.2.1.chip k (p + ((xs.take n).flatMap Packet.bytes).length) ∧
      TxState r.2.1.chip k ∧ Spec.Mqtt.quiet (Spec.Mqtt.interrupts r.2.1.chip k) = true ∧
      ∀ m j, j ≤ xs.length → j ≤ (turnsOf (as.drop m)).length →
        (xs.take j).flatMap Packet.bytes <+: ((acts fuel (as.take m) (w, c)).2.1.chip.received k).drop p → j ≤ n := by
  change RxState w.chip c.sn.idx p at hrx
  obtain ⟨base, hb⟩ := hrx.at
  obtain ⟨n, h1, h2, h3, h4, h5, h6, h7, h8⟩ := duplex fuel base as w c p xs ⟨hready, htime, hb, hq⟩ htx has hok hs
  exact ⟨n, h1, h2, h4, h5, h3, h6.rx.state, h7, h6.calm, h8⟩

/-! A session: the broker's packets arrive while the client subscribes, publishes and unsubscribes; one request has the empty filter. -/

def exActs : List Act :=
  [.send [.arrive 3 [0x30, 6]] (.subscribe [102]) [[], [.arrive 3 [0, 1, 116]]],
   .turn ⟨[.arrive 3 [0, 1]], 5, [], [.topic 9, .payload 9]⟩,
   .send [] (.publish [120] [7, 8, 9]) [[.arrive 3 [2, 0x90, 5, 1, 2, 1, 7, 0x87, 0xD0, 0, 0x31]]],
   .turn ⟨[], 6, [], [.topic 9, .payload 9]⟩, .send [] (.subscribe []) [], .send [.raise 3 4] (.unsubscribe [102]) [],
   .turn ⟨[.arrive 3 [5, 0, 1, 117, 0, 3]], 7, [], [.topic 9, .payload 9]⟩, .turn ⟨[], 8, [], [.topic 9, .payload 9]⟩]

example : TxState (tcpWorld 0 []).chip 3 := ⟨by decide +kernel, by decide +kernel, by decide +kernel, by decide +kernel⟩
example : ∀ a ∈ exActs, a.quiet 3 := by
  unfold exActs
  intro t ht
  simp only [List.mem_cons, List.not_mem_nil, or_false] at ht
  rcases ht with rfl | rfl | rfl | rfl | rfl | rfl | rfl | rfl <;> simp [Act.quiet, Turn.quiet] <;> decide
def exActsReceived (n : Nat) : Bytes := ((acts 1 (exActs.take n) (tcpWorld 0 [], tcpClient .ready)).2.1.chip.received 3).drop 0
theorem exActs_received : ∀ n, n < 9 →
    (exActsReceived n).isPrefixOf [0x30, 6, 0, 1, 116, 0, 1, 2, 0x90, 5, 1, 2, 1, 7, 0x87, 0xD0, 0, 0x31, 5, 0, 1, 117, 0, 3] = true := by
  decide +kernel
example : ∀ n, ((acts 1 (exActs.take n) (tcpWorld 0 [], tcpClient .ready)).2.1.chip.received 3).drop 0 <+: exPackets.flatMap Packet.bytes := by
  intro n
  rw [exPackets_bytes]
  change exActsReceived n <+: _
  generalize hb : ([0x30, 6, 0, 1, 116, 0, 1, 2, 0x90, 5, 1, 2, 1, 7, 0x87, 0xD0, 0, 0x31, 5, 0, 1, 117, 0, 3] : Bytes) = b
  have hall := exActs_received
  rw [hb] at hall
  by_cases h : n < 9
  · exact List.isPrefixOf_iff_prefix.mp (hall n h)
  · have h6 : exActsReceived n = exActsReceived 8 := by
      unfold exActsReceived
      rw [List.take_of_length_le (show exActs.length ≤ n by simp [exActs]; omega), List.take_of_length_le (show exActs.length ≤ 8 by simp [exActs])]
    rw [h6]
    exact List.isPrefixOf_iff_prefix.mp (hall 8 (by omega))
example : (acts 1 exActs (tcpWorld 0 [], tcpClient .ready)).1 =
    [.sent (.ok (.ok (some 2))), .seen .nothing, .sent (.ok (.ok none)), .seen (.message [.ok (.ok [116]), .ok (.ok [1, 2])]),
     .sent (.ok (.ok (some 0))), .sent (.ok (.ok (some 4))), .seen (.subAck 258 .notAuthorized), .seen .nothing] := by decide +kernel
example : (acts 1 exActs (tcpWorld 0 [], tcpClient .ready)).2.1.chip.sent.map (·.payload) =
    [[0x82, 7, 0, 2, 0, 0, 1, 102, 0x24], [0x30, 7, 0, 1, 120, 0, 7, 8, 9], [0xA2, 6, 0, 4, 0, 0, 1, 102]] := by decide +kernel

end Verif.Thm
