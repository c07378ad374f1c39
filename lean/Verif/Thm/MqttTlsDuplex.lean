import Verif.Proof.MqttTlsSend
import Verif.Thm.MqttTlsSession
import Verif.Spec.MqttTlsDuplex
/-!
# C111: an MQTT session over TLS in both directions
-/
namespace Verif.MqttTls
open Verif Hl
open _root_.Verif.Spec (World worldBus TxState RxState EnvStep Sent)
open Verif.Tls (X Crypto TEvent Fail Rng Alert tlsWriter)
open _root_.Verif.Spec.MqttSession (Packet)
open _root_.Verif.Spec.MqttTlsSession (Turn turn turns Shows Seen seen takePacket Room)
open _root_.Verif.Spec.MqttDuplex (Request)
open _root_.Verif.Spec.MqttTlsDuplex (Act Done call acts outgoing records turnsOf seenOf)

variable {x : Crypto}

/-- The result of a request that was refused because the buffer is full. -/
def Refused {α : Type} (r : Except (Fail Error) α) : Prop :=
  r = .error (.err (.mqtt .outOfMemory)) ∨ r = .error (.err (.clientAlert (Alert.newWarning .internalError)))

theorem Full.refused {α : Type} {w : World} {c : Client x} {pkt : Bytes} {r : Except (Fail Error) α} (h : Full w c pkt r) : Refused r := by
  rcases h with ⟨h, -⟩ | ⟨h, -⟩
  · exact .inl h
  · exact .inr h

theorem Refused.map {α β : Type} {f : α → β} {r : Except (Fail Error) α} (h : Refused r) : Refused (r.map f) := by
  rcases h with rfl | rfl
  · exact .inl rfl
  · exact .inr rfl

theorem publish_emit (topic payload : Bytes) :
    (publish worldBus topic payload : X Error (World × Client x) Unit) = emit (Mqtt.publishProg topic payload) := rfl

theorem sendFilter_emit (filter : Bytes) (hf : filter ≠ []) (p : UInt16 → WProg Unit) (w : World) (c : Client x) :
    (sendFilter worldBus filter p (w, c)).2 = (emit (p c.nextPktId.pktId) (w, c.nextPktId)).2 := by
  unfold sendFilter emit
  rw [X.bind_ok (modC_run Client.nextPktId (w, c)), X.bind_ok (getC_run _)]
  dsimp only
  rw [show filter.isEmpty = false by simpa using hf]
  rcases hr : onTls mapWriterErr (tlsWriter worldBus) (w, c.nextPktId) with ⟨e | r, s⟩
  · rw [X.bind_error hr, X.bind_error hr]
  · rw [X.bind_ok hr, X.bind_ok hr]
    rcases hs : onTls mapW5500 (sendPacket worldBus r (p c.nextPktId.pktId)) s with ⟨e | a, s'⟩
    · exact congrArg Prod.snd (X.bind_error hs)
    · exact congrArg Prod.snd (X.bind_ok hs)

theorem sendFilter_kept (hx : x.Standard) (filter : Bytes) (p : UInt16 → WProg Unit) (w : World) (c : Client x) (t : Bytes) (h : CanSend w c t) :
    TxOnly c.tls.sn.idx w (sendFilter worldBus filter p (w, c)).2.1 ∧ TxState (sendFilter worldBus filter p (w, c)).2.1.chip c.tls.sn.idx := by
  by_cases hf : filter = []
  · subst hf
    unfold sendFilter
    rw [X.bind_ok (modC_run Client.nextPktId (w, c)), X.bind_ok (getC_run _)]
    have h1 := (tlsWriter_sends w c.nextPktId.tls c.tls.sn.idx).1
    have h2 := writer_idle w c.nextPktId h.tx
    rw [← onTls_world mapWriterErr (tlsWriter worldBus) w c.nextPktId] at h1
    rcases hr : onTls mapWriterErr (tlsWriter worldBus) (w, c.nextPktId) with ⟨e | r, s⟩
    · rw [hr] at h1 h2
      rw [X.bind_error hr]
      exact ⟨h1, h2⟩
    · rw [hr] at h1 h2
      rw [X.bind_ok hr]
      exact ⟨h1, h2⟩
  · rw [sendFilter_emit filter hf]
    exact ⟨emit_sends _ w c.nextPktId, emit_idle hx _ w c.nextPktId t ⟨h.connected, h.traffic, h.seq, h.tx⟩⟩

theorem sendFilter_empty (hx : x.Standard) (p : UInt16 → WProg Unit) (w : World) (c : Client x) (t : Bytes) (h : CanSend w c t) :
    let r := sendFilter worldBus [] p (w, c)
    r.2.2 = c.nextPktId ∧ r.2.1.chip.sent = w.chip.sent ∧ (r.1 = .ok 0 ∨ Refused r.1) := by
  intro r
  rcases packet_run hx (c := c.nextPktId) h.tx h.traffic h.connected h.seq (EmitsAt.nil 0) with ⟨h1, h2⟩ | ⟨rd, w1, h1, h2, -⟩
  · have hr : r = (.error (.err (.clientAlert (Alert.newWarning .internalError))), (w.tick, c.nextPktId)) := by
      show sendFilter worldBus [] p (w, c) = _
      unfold sendFilter
      rw [X.bind_ok (modC_run Client.nextPktId (w, c)), X.bind_ok (getC_run _), X.bind_error h2]
    rw [hr]
    exact ⟨rfl, tick_sent w, .inr (.inr rfl)⟩
  · have hr : r = (.ok 0, (w1, c.nextPktId)) := by
      show sendFilter worldBus [] p (w, c) = _
      unfold sendFilter
      rw [X.bind_ok (modC_run Client.nextPktId (w, c)), X.bind_ok (getC_run _), X.bind_ok h1]
      rfl
    rw [hr]
    exact ⟨rfl, h2, .inl rfl⟩

/-- A request on a connection. -/
theorem request_step (hx : x.Standard) (q : Request) (w : World) (c : Client x) (t : Bytes) (h : CanSend w c t) :
    let r := call q (w, c)
    TxOnly c.tls.sn.idx w r.2.1 ∧ TxState r.2.1.chip c.tls.sn.idx ∧ ∃ pid,
      ((∃ id pkt, r.1 = .ok id ∧ q.packet id = [pkt] ∧ r.2.2 = (c.withId pid).afterRecord ∧ SentRecord w r.2.1 c t pkt) ∨
       (r.2.2 = c.withId pid ∧ r.2.1.chip.sent = w.chip.sent ∧ ((∃ id, r.1 = .ok id ∧ q.packet id = []) ∨ Refused r.1))) := by
  cases q with
  | publish topic payload =>
    unfold call
    dsimp only
    refine ⟨emit_sends _ w c, emit_idle hx _ w c t h, c.pktId, ?_⟩
    rcases C90_publish hx topic payload w c t h with ⟨h1, h2, h3⟩ | ⟨h1, h2, h3⟩
    · exact .inl ⟨none, _, by rw [h1]; rfl, rfl, h2, h3⟩
    · exact .inr ⟨h1, h2, .inr h3.refused.map⟩
  | subscribe filter =>
    unfold call
    dsimp only
    obtain ⟨k1, k2⟩ := sendFilter_kept hx filter (Mqtt.subscribeProg false filter) w c t h
    refine ⟨k1, k2, ?_⟩
    by_cases hf : filter = []
    · subst hf
      obtain ⟨h1, h2, h3⟩ := sendFilter_empty hx (Mqtt.subscribeProg false []) w c t h
      refine ⟨c.nextPktId.pktId, .inr ⟨h1, h2, ?_⟩⟩
      rcases h3 with h3 | h3
      · refine .inl ⟨some 0, ?_, rfl⟩
        unfold subscribe
        rw [h3]
        rfl
      · exact .inr h3.map
    · refine ⟨(subscribe false worldBus filter (w, c)).2.2.pktId, ?_⟩
      rcases C90_subscribe hx false filter hf w c t h with ⟨h1, h2, h3⟩ | ⟨h1, h2, h3 | ⟨-, h3, -⟩⟩
      · refine .inl ⟨some _, _, by rw [h1]; rfl, ?_, h2, h3⟩
        unfold Request.packet
        dsimp only
        rw [if_neg hf]
      · exact .inr ⟨h1, h2, .inr h3.refused.map⟩
      · cases h3
  | unsubscribe filter =>
    unfold call
    dsimp only
    obtain ⟨k1, k2⟩ := sendFilter_kept hx filter (Mqtt.unsubscribeProg false filter) w c t h
    refine ⟨k1, k2, ?_⟩
    by_cases hf : filter = []
    · subst hf
      obtain ⟨h1, h2, h3⟩ := sendFilter_empty hx (Mqtt.unsubscribeProg false []) w c t h
      refine ⟨c.nextPktId.pktId, .inr ⟨h1, h2, ?_⟩⟩
      rcases h3 with h3 | h3
      · refine .inl ⟨some 0, ?_, rfl⟩
        unfold unsubscribe
        rw [h3]
        rfl
      · exact .inr h3.map
    · refine ⟨(unsubscribe false worldBus filter (w, c)).2.2.pktId, ?_⟩
      rcases C90_unsubscribe hx false filter hf w c t h with ⟨h1, h2, h3⟩ | ⟨h1, h2, h3 | ⟨-, h3, -⟩⟩
      · refine .inl ⟨some _, _, by rw [h1]; rfl, ?_, h2, h3⟩
        unfold Request.packet
        dsimp only
        rw [if_neg hf]
      · exact .inr ⟨h1, h2, .inr h3.refused.map⟩
      · cases h3

/-- What the application does on the connection does not change; `n` records were taken and `m` records were sent. -/
structure Used (w w' : World) (c c' : Client x) (n m : Nat) : Prop where
  received : w.chip.received c.tls.sn.toU8.toNat <+: w'.chip.received c.tls.sn.toU8.toNat
  same : c' = { c with
    pktId := c'.pktId
    tls := { c.tls with rx := c'.tls.rx, ks := { c.tls.ks with readSeq := c'.tls.ks.readSeq, writeSeq := c'.tls.ks.writeSeq } } }
  size : c'.tls.rx.n = c.tls.rx.n
  seq : c'.tls.ks.readSeq.toNat = c.tls.ks.readSeq.toNat + n
  wseq : c'.tls.ks.writeSeq.toNat = c.tls.ks.writeSeq.toNat + m

theorem Used.trans {w w' w'' : World} {c c' c'' : Client x} {n m n' m' : Nat} (h : Used w w' c c' n m) (h' : Used w' w'' c' c'' n' m') :
    Used w w'' c c'' (n + n') (m + m') := by
  have hsn : c'.tls.sn = c.tls.sn := by rw [h.same]
  refine ⟨h.received.trans (by rw [← hsn]; exact h'.received), ?_, h'.size.trans h.size, by rw [h'.seq, h.seq]; omega, by rw [h'.wseq, h.wseq]; omega⟩
  have := h'.same
  rw [h.same] at this
  exact this

theorem Kept.used {w w' : World} {c c' : Client x} {n : Nat} (h : Kept w w' c c' n) : Used w w' c c' n 0 := by
  refine ⟨h.received, ?_, h.size, h.seq, by rw [h.same]; rfl⟩
  have h1 : c'.pktId = c.pktId := by rw [h.same]
  have h2 : c'.tls.ks.writeSeq = c.tls.ks.writeSeq := by rw [h.same]
  rw [h1, h2]
  exact h.same

theorem pause_live {w : World} {c : Client x} {t : Bytes} {p : Nat} {D : Bytes} {before : List EnvStep} {during : List (List EnvStep)}
    (h : Live w c t p D) (hq : ∀ es ∈ before :: during, ∀ bits, EnvStep.raise c.tls.sn.toU8.toNat bits ∈ es → Spec.Mqtt.quiet bits = true) :
    Live (w.pause before during) c t p D ∧ Peace c.tls.sn.toU8.toNat (w.pause before during) ∧
      (w.pause before during).chip.sent = w.chip.sent ∧
      w.chip.received c.tls.sn.toU8.toNat <+: (w.pause before during).chip.received c.tls.sn.toU8.toNat := by
  have hp : Peace c.tls.sn.idx ({ w with sched := before :: during } : World) := ⟨h.calm, hq⟩
  have hc := calm_tick c.tls.sn.idx ({ w with sched := before :: during } : World)
  obtain ⟨base, hb⟩ := h.ready.rx.at
  have hr := h.ready
  exact ⟨⟨⟨hr.connected, hr.traffic, hr.client, hr.seq, hr.holds, (hc.rx _ _ hb).state, hc.tx hr.tx⟩, h.tlsTime, h.time, hp.tick.now⟩,
    hp.tick, hc.sent, hc.recvd⟩

/-- A request between the turns. -/
theorem send_step (hx : x.Standard) (fuel : Nat) (before : List EnvStep) (q : Request) (during : List (List EnvStep)) (t tc : Bytes) (w : World)
    (c : Client x) (p : Nat) (D : Bytes) (h : Live w c t p D) (hc : c.tls.ks.clientTraffic = some tc) (hseq : c.tls.ks.writeSeq.toNat + 1 < 2 ^ 64)
    (hq : (Act.send before q during : Act x).quiet c.tls.sn.toU8.toNat) :
    let r := (Act.send before q during).run fuel (w, c)
    r.1.answered ∧ Live r.2.1 r.2.2 t p D ∧ Tls.Onward c.tls.sn.toU8.toNat (w.pause before during) r.2.1 ∧
    Used w r.2.1 c r.2.2 0 (outgoing [(Act.send before q during : Act x)] [r.1]).length ∧ (outgoing [(Act.send before q during : Act x)] [r.1]).length ≤ 1 ∧
    ∃ ss, r.2.1.chip.sent = w.chip.sent ++ ss ∧
      ss.map (fun s => (s.sock, s.payload)) = (records tc c.tls.ks.writeSeq.toNat (outgoing [(Act.send before q during : Act x)] [r.1])).map (c.tls.sn.toU8.toNat, ·) := by
  intro r
  obtain ⟨l1, l2, l3, l4⟩ := pause_live (before := before) (during := during) h hq
  have hcan : CanSend (w.pause before during) c tc := ⟨h.ready.connected, hc, hseq, l1.ready.tx⟩
  obtain ⟨k1, k2, pid, k3⟩ := request_step hx q (w.pause before during) c tc hcan
  obtain ⟨base, hb⟩ := l1.ready.rx.at
  have hr : r = (.sent (call q (w.pause before during, c)).1, (call q (w.pause before during, c)).2) := rfl
  generalize call q (w.pause before during, c) = o at hr k1 k2 k3
  obtain ⟨res, w1, c1⟩ := o
  subst r
  dsimp only at k1 k2 k3 hr ⊢
  rw [hr]
  have hl := l1.ready
  have hpre : w.chip.received c.tls.sn.toU8.toNat <+: w1.chip.received c.tls.sn.toU8.toNat := l4.trans k1.pre
  have hw1 : (c.tls.ks.writeSeq + 1).toNat = c.tls.ks.writeSeq.toNat + 1 := by
    rw [UInt64.toNat_add, show (1 : UInt64).toNat = 1 from rfl]; omega
  rcases k3 with ⟨id, pkt, e1, e2, e3, e4⟩ | ⟨e1, e2, e3⟩
  · have ho : outgoing [(Act.send before q during : Act x)] [Done.sent res] = [pkt] := by
      rw [e1]
      show q.packet id ++ [] = _
      rw [e2]; rfl
    rw [ho]
    subst e3
    refine ⟨.inl ⟨id, e1⟩, ⟨⟨hl.connected, hl.traffic, hl.client, hl.seq, hl.holds, (k1.rx _ _ hb).state, k2⟩, l1.tlsTime, l1.time, (k1.peace l2).now⟩,
      ⟨k1.pre, k1.still⟩, ⟨hpre, rfl, rfl, rfl, hw1⟩, Nat.le_refl _, [⟨c.tls.sn.toU8.toNat, (w.pause before during).chip.destIp c.tls.sn.toU8.toNat, (w.pause before during).chip.destPort c.tls.sn.toU8.toNat,
        Spec.Tls.protect tc c.tls.ks.writeSeq.toNat 23 pkt⟩], by rw [e4.sent, l3], rfl⟩
  · have ho : outgoing [(Act.send before q during : Act x)] [Done.sent res] = [] := by
      rcases e3 with ⟨id, e3, e4⟩ | e3 | e3
      · rw [e3]
        show q.packet id ++ [] = _
        rw [e4]; rfl
      · rw [e3]; rfl
      · rw [e3]; rfl
    rw [ho]
    subst e1
    refine ⟨?_, ⟨⟨hl.connected, hl.traffic, hl.client, hl.seq, hl.holds, (k1.rx _ _ hb).state, k2⟩, l1.tlsTime, l1.time, (k1.peace l2).now⟩,
      ⟨k1.pre, k1.still⟩, ⟨hpre, rfl, rfl, rfl, rfl⟩, Nat.zero_le _, [], by rw [e2, l3, List.append_nil], rfl⟩
    rcases e3 with ⟨id, e3, -⟩ | e3
    · exact .inl ⟨id, e3⟩
    · exact .inr e3

theorem outgoing_turn (t : Turn x) (as : List (Act x)) (d : Done) (ds : List Done) : outgoing (.turn t :: as) (d :: ds) = outgoing as ds := by
  cases d <;> rfl

theorem outgoing_cons (a : Act x) (as : List (Act x)) (d : Done) (ds : List Done) : outgoing (a :: as) (d :: ds) = outgoing [a] [d] ++ outgoing as ds := by
  cases a with
  | turn t => rw [outgoing_turn, outgoing_turn]; rfl
  | send b q e =>
    cases d with
    | seen s => rfl
    | sent r =>
      cases r with
      | error e => rfl
      | ok id => show _ = (q.packet id ++ []) ++ _; rw [List.append_nil]; rfl

theorem records_append (t : Bytes) : ∀ (as bs : List Bytes) (n : Nat), records t n (as ++ bs) = records t n as ++ records t (n + as.length) bs := by
  intro as
  induction as with
  | nil => intro bs n; rfl
  | cons a as ih =>
    intro bs n
    rw [List.cons_append, records, records, ih, List.length_cons, List.cons_append, show n + 1 + as.length = n + (as.length + 1) by omega]

theorem acts_cons (fuel : Nat) (a : Act x) (as : List (Act x)) (s : World × Client x) {o : Done} {s' : World × Client x}
    (h : a.run fuel s = (o, s')) : acts fuel (a :: as) s = (o :: (acts fuel as s').1, (acts fuel as s').2) := by
  rw [acts, h]

/-- What the theorem says. -/
def Carries (fuel : Nat) (t tc : Bytes) (as : List (Act x)) (w : World) (c : Client x) (p : Nat) (D : Bytes) (rs : List Bytes) (xs : List Packet) : Prop :=
  ∃ n k D', n ≤ xs.length ∧ k ≤ rs.length ∧ Shows (turnsOf as) (seenOf (acts fuel as (w, c)).1) (xs.take n) ∧
    (xs.take n).flatMap Packet.bytes ++ D' = D ++ (rs.take k).flatten ∧
    Live (acts fuel as (w, c)).2.1 (acts fuel as (w, c)).2.2 t (p + (Tls.protectAll t c.tls.ks.readSeq.toNat (rs.take k)).length) D' ∧
    Used w (acts fuel as (w, c)).2.1 c (acts fuel as (w, c)).2.2 k (outgoing as (acts fuel as (w, c)).1).length ∧
    (∀ d ∈ (acts fuel as (w, c)).1, d.answered) ∧
    (∃ ss, (acts fuel as (w, c)).2.1.chip.sent = w.chip.sent ++ ss ∧
      ss.map (fun s => (s.sock, s.payload)) =
        (records tc c.tls.ks.writeSeq.toNat (outgoing as (acts fuel as (w, c)).1)).map (c.tls.sn.toU8.toNat, ·)) ∧
    ∀ m i j, i ≤ rs.length → j ≤ xs.length → i + j ≤ (turnsOf (as.drop m)).length →
      Tls.protectAll t c.tls.ks.readSeq.toNat (rs.take i) <+:
        ((acts fuel (as.take m) (w, c)).2.1.chip.received c.tls.sn.toU8.toNat).drop p →
      (xs.take j).flatMap Packet.bytes <+: D ++ (rs.take i).flatten → j ≤ n

theorem duplex (hx : x.Standard) (fuel : Nat) (t tc : Bytes) : ∀ (as : List (Act x)) (w : World) (c : Client x) (p : Nat) (D : Bytes) (rs : List Bytes)
    (xs : List Packet), Live w c t p D → c.tls.ks.clientTraffic = some tc → (∀ a ∈ as, a.quiet c.tls.sn.toU8.toNat) → (∀ y ∈ xs, y.ok) →
    (∀ r ∈ rs, r.length + 17 ≤ c.tls.recordSizeLimit.toNat) → Room c.tls.rx.n D rs xs → c.tls.ks.readSeq.toNat + rs.length + 1 < 2 ^ 64 →
    c.tls.ks.writeSeq.toNat + as.length < 2 ^ 64 → D ++ rs.flatten <+: xs.flatMap Packet.bytes →
    (∀ n, ((acts fuel (as.take n) (w, c)).2.1.chip.received c.tls.sn.toU8.toNat).drop p <+: Tls.protectAll t c.tls.ks.readSeq.toNat rs) →
    Carries fuel t tc as w c p D rs xs := by
  intro as
  induction as with
  | nil =>
    intro w c p D rs xs h _ _ _ _ _ _ _ _ _
    refine ⟨0, 0, D, Nat.zero_le _, Nat.zero_le _, .nil, by simp, ?_, ⟨List.prefix_rfl, rfl, rfl, rfl, rfl⟩, nofun, ⟨[], ?_, rfl⟩, fun m i j _ _ hm _ _ => ?_⟩
    · exact h
    · show _ = _ ++ []; rw [List.append_nil]; rfl
    · simp [turnsOf] at hm; omega
  | cons a as ih =>
    intro w c p D rs xs h htc hq hok hlim hroom hseq hwseq hD hs
    have h1 := hs 1
    change ((a.run fuel (w, c)).2.1.chip.received c.tls.sn.toU8.toNat).drop p <+: _ at h1
    rw [List.length_cons] at hwseq
    cases a with
    | send before q during =>
      obtain ⟨k1, k2, k0, k3, k4, ss, k5, k6⟩ := send_step hx fuel before q during t tc w c p D h htc (by omega) (hq _ (List.mem_cons_self ..))
      rcases hr : (Act.send before q during).run fuel (w, c) with ⟨o, w', c'⟩
      obtain ⟨res, rfl⟩ : ∃ res, o = Done.sent res := ⟨_, (congrArg Prod.fst hr).symm⟩
      rw [hr] at k1 k2 k3 k4 k5 k6
      dsimp only at k1 k2 k3 k4 k5 k6
      have hT := fun us => acts_cons fuel (Act.send before q during) us (w, c) hr
      have hsn : c'.tls.sn = c.tls.sn := by rw [k3.same]
      have hseq0 : c'.tls.ks.readSeq = c.tls.ks.readSeq := UInt64.toNat_inj.mp (by rw [k3.seq]; rfl)
      have hl : c'.tls.recordSizeLimit = c.tls.recordSizeLimit := by unfold Tls.Client.recordSizeLimit; rw [k3.size]
      obtain ⟨n, k, D', g1, g2, g3, g4, g5, g6, g7, ⟨ss', g8, g9⟩, g10⟩ := ih w' c' p D rs xs k2 (by rw [k3.same]; exact htc)
        (by rw [hsn]; exact fun a ha => hq a (List.mem_cons_of_mem _ ha)) hok (by rw [hl]; exact hlim) (by rw [k3.size]; exact hroom)
        (by rw [hseq0]; exact hseq) (by rw [k3.wseq]; omega) hD (by
          intro n
          have := hs (n + 1)
          rw [List.take_succ_cons, hT] at this
          rw [hsn, hseq0]
          exact this)
      unfold Carries
      rw [hT, outgoing_cons, List.length_append]
      refine ⟨n, k, D', g1, g2, g3, g4, by rw [← hseq0]; exact g5, ?_, ?_, ⟨ss ++ ss', ?_, ?_⟩, ?_⟩
      · have := k3.trans g6
        rw [Nat.zero_add] at this
        exact this
      · intro d hd
        rcases List.mem_cons.mp hd with rfl | hd
        · exact k1
        · exact g7 d hd
      · rw [g8, k5, List.append_assoc]
      · rw [List.map_append, k6, g9, k3.wseq, hsn, records_append, List.map_append]
      · intro m i j hi hj hm h2 h3
        cases m with
        | zero =>
          refine g10 0 i j hi hj hm ?_ h3
          rw [hsn, hseq0]
          exact h2.trans (_root_.Verif.prefix_drop k3.received p)
        | succ m =>
          rw [List.take_succ_cons, hT] at h2
          refine g10 m i j hi hj hm ?_ h3
          rw [hsn, hseq0]
          exact h2
    | turn tn =>
      change ((turn fuel tn (w, c)).2.1.chip.received c.tls.sn.toU8.toNat).drop p <+: _ at h1
      -- what the rest needs, after a turn that took `k0` records
      have rest : ∀ (w' : World) (c' : Client x) (k0 : Nat) (D1 : Bytes), k0 ≤ rs.length → D1 = D ++ (rs.take k0).flatten →
          turn fuel tn (w, c) = (headSeen tn.ops D1 xs, w', c') →
          Live w' c' t (p + (Tls.protectAll t c.tls.ks.readSeq.toNat (rs.take k0)).length) (takePacket D1 xs).1 → Kept w w' c c' k0 →
          Room c.tls.rx.n (takePacket D1 xs).1 (rs.drop k0) (takePacket D1 xs).2 →
          (∀ i, k0 < i → i ≤ rs.length → k0 = 0 →
            ¬ Tls.protectAll t c.tls.ks.readSeq.toNat (rs.take i) <+: (w.chip.received c.tls.sn.toU8.toNat).drop p) →
          k0 ≤ 1 → Carries fuel t tc (.turn tn :: as) w c p D rs xs := by
        intro w' c' k0 D1 hk0 hD1 hturn hlive hkept hroom' hno hk1
        have hrun : (Act.turn tn).run fuel (w, c) = (.seen (headSeen tn.ops D1 xs), (w', c')) := by
          show (Done.seen (turn fuel tn (w, c)).1, (turn fuel tn (w, c)).2) = _
          rw [hturn]
        have hT := fun us => acts_cons fuel (Act.turn tn) us (w, c) hrun
        have hsn : c'.tls.sn = c.tls.sn := by rw [hkept.same]
        have hws : c'.tls.ks.writeSeq = c.tls.ks.writeSeq := by rw [hkept.same]
        have hl : c'.tls.recordSizeLimit = c.tls.recordSizeLimit := by unfold Tls.Client.recordSizeLimit; rw [hkept.size]
        have hklen : (rs.take k0).length = k0 := by rw [List.length_take]; omega
        have hsplit : Tls.protectAll t c.tls.ks.readSeq.toNat rs =
            Tls.protectAll t c.tls.ks.readSeq.toNat (rs.take k0) ++ Tls.protectAll t c'.tls.ks.readSeq.toNat (rs.drop k0) := by
          rw [hkept.seq]
          conv => lhs; rw [← List.take_append_drop k0 rs]
          rw [protectAll_append, hklen]
        have htake : ∀ i, rs.take (k0 + i) = rs.take k0 ++ (rs.drop k0).take i := fun i => List.take_add
        have hpt : ∀ i, Tls.protectAll t c.tls.ks.readSeq.toNat (rs.take (k0 + i)) =
            Tls.protectAll t c.tls.ks.readSeq.toNat (rs.take k0) ++ Tls.protectAll t c'.tls.ks.readSeq.toNat ((rs.drop k0).take i) := by
          intro i
          rw [htake, protectAll_append, hklen, hkept.seq]
        have hD1' : D1 ++ (rs.drop k0).flatten <+: xs.flatMap Packet.bytes := by
          rw [hD1, List.append_assoc, ← List.flatten_append, List.take_append_drop]
          exact hD
        have hs' : ∀ n, ((acts fuel (as.take n) (w', c')).2.1.chip.received c'.tls.sn.toU8.toNat).drop
            (p + (Tls.protectAll t c.tls.ks.readSeq.toNat (rs.take k0)).length) <+: Tls.protectAll t c'.tls.ks.readSeq.toNat (rs.drop k0) := by
          intro n
          have := hs (n + 1)
          rw [List.take_succ_cons, hT, hsplit] at this
          rw [hsn]
          exact Thm.prefix_shorten this
        have hq' : ∀ a ∈ as, a.quiet c'.tls.sn.toU8.toNat := by
          rw [hsn]; exact fun a ha => hq a (List.mem_cons_of_mem _ ha)
        have hlim' : ∀ r ∈ rs.drop k0, r.length + 17 ≤ c'.tls.recordSizeLimit.toNat := by
          rw [hl]; exact fun r hr => hlim r (List.mem_of_mem_drop hr)
        have hseq' : c'.tls.ks.readSeq.toNat + (rs.drop k0).length + 1 < 2 ^ 64 := by
          rw [hkept.seq, List.length_drop]; omega
        have hwseq' : c'.tls.ks.writeSeq.toNat + as.length < 2 ^ 64 := by rw [hws]; omega
        have htc' : c'.tls.ks.clientTraffic = some tc := by rw [hkept.same]; exact htc
        rw [← hkept.size] at hroom'
        -- the arguments of the last part
        have hargs : ∀ m i j, i ≤ rs.length →
            Tls.protectAll t c.tls.ks.readSeq.toNat (rs.take i) <+:
              ((acts fuel ((.turn tn :: as).take m) (w, c)).2.1.chip.received c.tls.sn.toU8.toNat).drop p →
            (xs.take j).flatMap Packet.bytes <+: D ++ (rs.take i).flatten →
            i + j ≤ (turnsOf ((.turn tn :: as).drop m)).length →
            Tls.protectAll t c'.tls.ks.readSeq.toNat ((rs.drop k0).take (i - k0)) <+:
              ((acts fuel (as.take (m - 1)) (w', c')).2.1.chip.received c'.tls.sn.toU8.toNat).drop
                (p + (Tls.protectAll t c.tls.ks.readSeq.toNat (rs.take k0)).length) ∧
            (xs.take j).flatMap Packet.bytes <+: D1 ++ ((rs.drop k0).take (i - k0)).flatten ∧ (k0 < i → m = 0 → k0 = 1) ∧
            i + j ≤ (turnsOf (as.drop (m - 1))).length + (if m = 0 then 1 else 0) := by
          intro m i j hi h1 h2 hm
          refine ⟨?_, ?_, ?_, ?_⟩
          · by_cases hlt : k0 < i
            · have hi' : i = k0 + (i - k0) := by omega
              rw [hi', hpt] at h1
              rw [hsn]
              cases m with
              | zero =>
                exact Thm.prefix_rest (h1.trans (_root_.Verif.prefix_drop hkept.received p))
              | succ m =>
                rw [List.take_succ_cons, hT] at h1
                exact Thm.prefix_rest h1
            · rw [show i - k0 = 0 by omega]
              exact List.nil_prefix
          · by_cases hlt : k0 ≤ i
            · have hi' : i = k0 + (i - k0) := by omega
              rw [hi', htake, List.flatten_append, ← List.append_assoc, ← hD1] at h2
              exact h2
            · have hi0 : i = 0 := by omega
              subst hi0
              rw [List.take_zero, List.flatten_nil, List.append_nil] at h2
              refine h2.trans ?_
              rw [hD1, List.append_assoc]
              exact List.prefix_append _ _
          · intro hlt hm
            subst hm
            rcases Nat.eq_zero_or_pos k0 with h0 | h0
            · exact absurd h1 (hno i hlt hi h0)
            · omega
          · cases m with
            | zero => exact hm
            | succ m => exact hm
        unfold Carries
        rcases takePacket_cases tn.ops D1 xs with ⟨y, ys, D2, rfl, f1, f2, f3⟩ | ⟨f1, f2, f3⟩
        · rw [f3] at hlive hroom'
          dsimp only at hlive hroom'
          obtain ⟨n, k, D', g1, g2, g3, g4, g5, g6, g7, ⟨ss, g8, g9⟩, g10⟩ := ih w' c' _ D2 (rs.drop k0) ys hlive htc' hq'
            (fun z hz => hok z (List.mem_cons_of_mem _ hz))
            hlim' hroom' hseq' hwseq' (by rw [f1, List.flatMap_cons, List.append_assoc] at hD1'; exact append_prefix hD1') hs'
          rw [List.length_drop] at g2
          rw [hT, f2, outgoing_turn]
          refine ⟨n + 1, k0 + k, D', by rw [List.length_cons]; omega, by omega, .packet g3, ?_, ?_, ?_, ?_, ⟨ss, ?_, ?_⟩, ?_⟩
          · rw [List.take_succ_cons, List.flatMap_cons, List.append_assoc, g4, ← List.append_assoc, ← f1, hD1, htake, List.flatten_append, List.append_assoc]
          · rw [hpt, List.length_append, ← Nat.add_assoc]
            exact g5
          · have := hkept.used.trans g6
            rw [Nat.zero_add] at this
            exact this
          · intro d hd
            rcases List.mem_cons.mp hd with rfl | hd
            · trivial
            · exact g7 d hd
          · rw [g8, hkept.sent]
          · rw [g9, hws, hsn]
          · intro m i j hi hj hm h1 h2
            obtain ⟨a1, a2, -, a4⟩ := hargs m i j hi h1 h2 hm
            cases j with
            | zero => omega
            | succ j =>
              rw [List.take_succ_cons, List.flatMap_cons, f1, List.append_assoc] at a2
              rw [List.length_cons] at hj
              have := g10 (m - 1) (i - k0) j (by rw [List.length_drop]; omega) (by omega) (by split at a4 <;> omega) a1 (append_prefix a2)
              omega
        · rw [f2] at hlive hroom'
          dsimp only at hlive hroom'
          obtain ⟨n, k, D', g1, g2, g3, g4, g5, g6, g7, ⟨ss, g8, g9⟩, g10⟩ := ih w' c' _ D1 (rs.drop k0) xs hlive htc' hq' hok hlim' hroom' hseq'
            hwseq' hD1' hs'
          rw [List.length_drop] at g2
          rw [hT, f1, outgoing_turn]
          refine ⟨n, k0 + k, D', g1, by omega, .none g3, ?_, ?_, ?_, ?_, ⟨ss, ?_, ?_⟩, ?_⟩
          · rw [g4, hD1, htake, List.flatten_append, List.append_assoc]
          · rw [hpt, List.length_append, ← Nat.add_assoc]
            exact g5
          · have := hkept.used.trans g6
            rw [Nat.zero_add] at this
            exact this
          · intro d hd
            rcases List.mem_cons.mp hd with rfl | hd
            · trivial
            · exact g7 d hd
          · rw [g8, hkept.sent]
          · rw [g9, hws, hsn]
          · intro m i j hi hj hm h1 h2
            obtain ⟨a1, a2, a3, a4⟩ := hargs m i j hi h1 h2 hm
            cases j with
            | zero => omega
            | succ j =>
              by_cases hlt : k0 < i
              · have := a3 hlt
                exact g10 (m - 1) (i - k0) (j + 1) (by rw [List.length_drop]; omega) hj (by split at a4 <;> omega) a1 a2
              · exfalso
                rw [show i - k0 = 0 by omega, List.take_zero, List.flatten_nil, List.append_nil] at a2
                cases xs with
                | nil => simp at hj
                | cons y ys =>
                  rw [List.take_succ_cons, List.flatMap_cons] at a2
                  exact f3 y ys rfl ((List.prefix_append _ _).trans a2)
      obtain ⟨w', c', h2⟩ := turn_step hx fuel tn t w c p D h (hq (.turn tn) (List.mem_cons_self ..)) rs xs hok (by
        intro r rs' e
        subst e
        exact ⟨hlim r (List.mem_cons_self ..), hroom.1⟩) hseq hD h1
      rcases h2 with ⟨e1, e2, e3, e4⟩ | ⟨r, rs', e, e1, e2, e3⟩
      · refine rest w' c' 0 D (Nat.zero_le _) (by simp) e1 e2 e3 ?_ ?_ (by omega)
        · rw [List.drop_zero]
          rcases takePacket_cases [] D xs with ⟨y, ys, D', rfl, f1, -, f2⟩ | ⟨-, f2, -⟩
          · rw [f2]
            refine room_ahead _ rs [y] ys D' ?_
            rw [List.flatMap_cons, List.flatMap_nil, List.append_nil, ← f1]
            exact hroom
          · rw [f2]; exact hroom
        · intro i hi hil _ hp
          cases rs with
          | nil => simp at hil; omega
          | cons r rs' =>
            cases i with
            | zero => omega
            | succ i =>
              rw [List.take_succ_cons, Tls.protectAll] at hp
              exact e4 r rs' rfl ((List.prefix_append _ _).trans hp)
      · subst e
        refine rest w' c' 1 (D ++ r) (by simp) (by simp) e1 ?_ e3 hroom.2 (fun i _ _ h => by omega) (by omega)
        rw [List.take_succ_cons, List.take_zero, Tls.protectAll, Tls.protectAll, List.append_nil]
        exact e2

/-- **C111 (part): an MQTT session over TLS carries messages in both directions.**  A client (built for release) whose TLS connection is
established, that waits for no answer and sends with the secret `tc`.  Its application calls `process`, `publish`, `subscribe` and
`unsubscribe` in any order (`as`), while the server sends records with the contents `rs`, which together with the unread data `D` are a
beginning of the packets `xs`, cut anywhere and arriving in any pieces at any time.  Then
* every request is accepted, or refused because the transmit buffer is too full;
* what is sent is exactly one record for the packet of each accepted request, in this order, with the identifier that was returned,
  protected with the secret and the next sequence numbers, so no packet is lost, sent twice or sent out of order;
* the turns show the first `n` packets of the broker, each once, whole and in order, at most one in a turn;
* the client is the same but for its packet identifier, its buffer and its two sequence numbers, which have grown by the number of
  records taken and sent; the buffer holds what was brought and not seen;
* a packet that is the `j`th and whose last byte is in the first `i` records is seen if there are `i + j` turns after these records arrived.
What is missing: `Room`, as in C110. -/
theorem C111_session_partial (hx : x.Standard) (fuel : Nat) (t tc : Bytes) (as : List (Act x)) (w : World) (c : Client x) (p : Nat) (D : Bytes)
    (rs : List Bytes) (xs : List Packet) (hr : Tls.Ready w c.tls t p D) (htc : c.tls.ks.clientTraffic = some tc)
    (ht1 : c.tls.timeout = none) (ht2 : c.timeout = none)
    (hi : Spec.Mqtt.quiet (Spec.Mqtt.interrupts w.chip c.tls.sn.toU8.toNat) = true) (hq : ∀ a ∈ as, a.quiet c.tls.sn.toU8.toNat)
    (hok : ∀ y ∈ xs, y.ok) (hlim : ∀ r ∈ rs, r.length + 17 ≤ c.tls.recordSizeLimit.toNat) (hroom : Room c.tls.rx.n D rs xs)
    (hseq : c.tls.ks.readSeq.toNat + rs.length + 1 < 2 ^ 64) (hwseq : c.tls.ks.writeSeq.toNat + as.length < 2 ^ 64)
    (hD : D ++ rs.flatten <+: xs.flatMap Packet.bytes)
    (hs : ∀ n, ((acts fuel (as.take n) (w, c)).2.1.chip.received c.tls.sn.toU8.toNat).drop p <+: Tls.protectAll t c.tls.ks.readSeq.toNat rs) :
    let r := acts fuel as (w, c)
    let k := c.tls.sn.toU8.toNat
    ∃ n taken D', n ≤ xs.length ∧ taken ≤ rs.length ∧ Shows (turnsOf as) (seenOf r.1) (xs.take n) ∧
      (xs.take n).flatMap Packet.bytes ++ D' = D ++ (rs.take taken).flatten ∧
      Tls.Ready r.2.1 r.2.2.tls t (p + (Tls.protectAll t c.tls.ks.readSeq.toNat (rs.take taken)).length) D' ∧
      (∀ d ∈ r.1, d.answered) ∧
      (∃ ss, r.2.1.chip.sent = w.chip.sent ++ ss ∧
        ss.map (fun s => (s.sock, s.payload)) = (records tc c.tls.ks.writeSeq.toNat (outgoing as r.1)).map (k, ·)) ∧
      r.2.2 = { c with
        pktId := r.2.2.pktId
        tls := { c.tls with rx := r.2.2.tls.rx, ks := { c.tls.ks with readSeq := r.2.2.tls.ks.readSeq, writeSeq := r.2.2.tls.ks.writeSeq } } } ∧
      r.2.2.tls.ks.readSeq.toNat = c.tls.ks.readSeq.toNat + taken ∧
      r.2.2.tls.ks.writeSeq.toNat = c.tls.ks.writeSeq.toNat + (outgoing as r.1).length ∧
      ∀ m i j, i ≤ rs.length → j ≤ xs.length → i + j ≤ (turnsOf (as.drop m)).length →
        Tls.protectAll t c.tls.ks.readSeq.toNat (rs.take i) <+: ((acts fuel (as.take m) (w, c)).2.1.chip.received k).drop p →
        (xs.take j).flatMap Packet.bytes <+: D ++ (rs.take i).flatten → j ≤ n := by
  obtain ⟨n, k, D', h1, h2, h3, h4, h5, h6, h7, h8, h9⟩ :=
    duplex hx fuel t tc as w c p D rs xs ⟨hr, ht1, ht2, hi⟩ htc hq hok hlim hroom hseq hwseq hD hs
  exact ⟨n, k, D', h1, h2, h3, h4, h5.ready, h7, h8, h6.same, h6.seq, h6.wseq, h9⟩

/-! ## The hypotheses are met -/

theorem acts_append (fuel : Nat) : ∀ (as bs : List (Act x)) (s : World × Client x), (acts fuel (as ++ bs) s).2 = (acts fuel bs (acts fuel as s).2).2 := by
  intro as
  induction as with
  | nil => intro bs s; rfl
  | cons a as ih => intro bs s; exact ih bs _

/-- When the records have arrived and nothing more arrives, what the socket received does not change. -/
theorem acts_silent (hx : x.Standard) (fuel : Nat) (t tc : Bytes) (as : List (Act x)) (w : World) (c : Client x) (p : Nat) (D : Bytes)
    (rs : List Bytes) (xs : List Packet) (h : Live w c t p D) (htc : c.tls.ks.clientTraffic = some tc) (hq : ∀ a ∈ as, a.quiet c.tls.sn.toU8.toNat)
    (hsil : ∀ a ∈ as, a.silent c.tls.sn.toU8.toNat) (hok : ∀ y ∈ xs, y.ok)
    (hlim : ∀ r ∈ rs, r.length + 17 ≤ c.tls.recordSizeLimit.toNat) (hroom : Room c.tls.rx.n D rs xs)
    (hseq : c.tls.ks.readSeq.toNat + rs.length + 1 < 2 ^ 64) (hwseq : c.tls.ks.writeSeq.toNat + as.length < 2 ^ 64)
    (hD : D ++ rs.flatten <+: xs.flatMap Packet.bytes)
    (hs : (w.chip.received c.tls.sn.toU8.toNat).drop p <+: Tls.protectAll t c.tls.ks.readSeq.toNat rs) :
    ∀ n, (acts fuel (as.take n) (w, c)).2.1.chip.received c.tls.sn.toU8.toNat = w.chip.received c.tls.sn.toU8.toNat := by
  have key : ∀ n m, m ≤ n → (acts fuel (as.take m) (w, c)).2.1.chip.received c.tls.sn.toU8.toNat = w.chip.received c.tls.sn.toU8.toNat := by
    intro n
    induction n with
    | zero => intro m hm; rw [show m = 0 by omega]; rfl
    | succ n ih =>
      intro m hm
      by_cases hmn : m ≤ n
      · exact ih m hmn
      have hm : m = n + 1 := by omega
      subst hm
      by_cases hl : n < as.length
      · have hlen : (as.take n).length = n := by rw [List.length_take]; omega
        obtain ⟨_, k, D', -, -, -, -, h5, h6, -⟩ := duplex hx fuel t tc (as.take n) w c p D rs xs h htc
          (fun a ha => hq a (List.mem_of_mem_take ha)) hok hlim hroom hseq (by omega) hD (fun m => by
            rw [List.take_take, ih _ (Nat.min_le_right _ _)]; exact hs)
        rw [List.take_succ_eq_append_getElem hl, acts_append]
        have h0 := ih n (Nat.le_refl _)
        have hout : (outgoing (as.take n) (acts fuel (as.take n) (w, c)).1).length ≤ n := by
          have ho : ∀ (as : List (Act x)) (s : World × Client x), (outgoing as (acts fuel as s).1).length ≤ as.length := by
            intro as
            induction as with
            | nil => intro s; exact Nat.le_refl _
            | cons a as ih =>
              intro s
              rw [acts]
              dsimp only
              rw [outgoing_cons, List.length_append, List.length_cons]
              have := ih (a.run fuel s).2
              have h1 : (outgoing [a] [(a.run fuel s).1]).length ≤ 1 := by
                cases a with
                | turn t => exact Nat.zero_le _
                | send b q d =>
                  show (outgoing [Act.send b q d] [Done.sent (call q (s.1.pause b d, s.2)).1]).length ≤ 1
                  rcases (call q (s.1.pause b d, s.2)).1 with e | id
                  · exact Nat.zero_le _
                  · show (q.packet id ++ []).length ≤ 1
                    rw [List.append_nil]
                    unfold Request.packet
                    split
                    · exact Nat.le_refl _
                    · split <;> simp
                    · split <;> simp
                    · decide
              omega
          have := ho (as.take n) (w, c)
          omega
        generalize acts fuel (as.take n) (w, c) = s at h0 h5 h6 hout
        obtain ⟨_, w1, c1⟩ := s
        dsimp only at h0 h5 h6 hout ⊢
        have hsn : c1.tls.sn = c.tls.sn := by rw [h6.same]
        have hqn := hq _ (List.getElem_mem hl)
        have hsn' := hsil _ (List.getElem_mem hl)
        show (as[n].run fuel (w1, c1)).2.1.chip.received _ = _
        generalize as[n] = a at hqn hsn'
        rw [← hsn] at hqn hsn' h0 ⊢
        cases a with
        | turn tn => exact (turn_silent fuel tn h5 hqn hsn').trans h0
        | send b q d =>
          obtain ⟨-, -, k0, -⟩ := send_step hx fuel b q d t tc w1 c1 _ _ h5 (by rw [h6.same]; exact htc) (by rw [h6.wseq]; omega) hqn
          obtain ⟨h1, h2⟩ := Still.tick (w := { w1 with sched := b :: d }) hsn'
          exact ((k0.still h1).2.trans h2).trans h0
      · rw [List.take_of_length_le (by omega), ← List.take_of_length_le (show as.length ≤ n by omega)]
        exact ih n (Nat.le_refl _)
  exact fun n => key n n (Nat.le_refl _)

namespace Witness
open Verif.Tls.Witness

/-- The client subscribes and publishes while three packets in three records come. -/
def exActs : List (Act X) :=
  [.send [] (.subscribe [102]) [], .turn exTurn, .turn exTurn, .send [] (.publish [97] [104, 105]) [[]], .turn exTurn, .turn exTurn,
    .send [] (.unsubscribe []) [], .turn exTurn, .turn exTurn]

theorem exActs_quiet (k : Nat) : ∀ a ∈ exActs, a.quiet k := by
  intro a ha
  simp only [exActs, List.mem_cons, List.not_mem_nil, or_false] at ha
  rcases ha with rfl | rfl | rfl | rfl | rfl | rfl | rfl | rfl | rfl <;> first | exact exTurn_quiet k | simp [Act.quiet]
theorem exActs_silent (k : Nat) : ∀ a ∈ exActs, a.silent k := by
  intro a ha
  simp only [exActs, List.mem_cons, List.not_mem_nil, or_false] at ha
  rcases ha with rfl | rfl | rfl | rfl | rfl | rfl | rfl | rfl | rfl <;> first | exact exTurn_silent k | simp [Act.silent]

/-- All three packets are shown, and every request is answered. -/
example : let r := acts 3 exActs (Thm.tcpWorld 0 (Tls.protectAll serverApp 0 exRecords), client)
    Shows (turnsOf exActs) (seenOf r.1) exPackets ∧ ∀ d ∈ r.1, d.answered := by
  intro r
  have hl : (Tls.protectAll serverApp 0 exRecords).length ≤ 2048 := by
    simp only [exRecords, Tls.protectAll, List.length_append, Tls.protect_length]
    decide
  obtain ⟨tc, hcan⟩ := canSend (Tls.protectAll serverApp 0 exRecords)
  have hok : ∀ y ∈ exPackets, y.ok := by
    intro y hy
    simp only [exPackets, List.mem_cons, List.not_mem_nil, or_false] at hy
    rcases hy with rfl | rfl | rfl
    · exact ⟨by rw [exMessage]; decide, by decide, by decide, by decide⟩
    · exact ⟨by rw [exOther]; decide, by decide, by decide, by decide⟩
    · exact ⟨by rw [exSubAck]; decide, by decide⟩
  have hlim : ∀ r ∈ exRecords, r.length + 17 ≤ client.tls.recordSizeLimit.toNat := by
    intro r hr
    have h1 := client_limits.1
    have h2 : ∀ r ∈ exRecords, r.length + 17 ≤ 417 := by decide
    have := h2 r hr
    omega
  have hroom : Room client.tls.rx.n [] exRecords exPackets := by
    rw [client_limits.2]; exact room_of_total _ _ _ _ (by decide)
  have hD : [] ++ exRecords.flatten <+: exPackets.flatMap Packet.bytes := by rw [exPackets_bytes]; exact List.prefix_rfl
  have hst := acts_silent standard 3 serverApp tc exActs _ client 0 [] exRecords exPackets ⟨ready _ hl, rfl, rfl, (peace _).now⟩ hcan.traffic
    (exActs_quiet _) (exActs_silent _) hok hlim hroom (by decide) (by decide) hD List.prefix_rfl
  obtain ⟨n, k, D', h1, h2, h3, h4, h5, h6, h7, h8, h9, h10, h11⟩ := C111_session_partial standard 3 serverApp tc exActs _ client 0 [] exRecords exPackets
    (ready _ hl) hcan.traffic rfl rfl (peace _).now (exActs_quiet _) hok hlim hroom (by decide) (by decide) hD (fun n => by rw [hst n]; exact List.prefix_rfl)
  have := h11 0 3 3 (by decide) (by decide) (by decide) (by rw [hst 0]; exact List.prefix_rfl) (by
    rw [show exPackets.take 3 = exPackets from rfl, exPackets_bytes]; exact List.prefix_rfl)
  have hn : n = 3 := Nat.le_antisymm h1 this
  subst hn
  exact ⟨h3, h6⟩

end Witness

end Verif.MqttTls
