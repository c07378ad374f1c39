import Verif.Proof.MqttRun
/-!
# C45: MQTT packets sent by the client
-/
namespace Verif.Thm
open Verif Hl Spec Verif.Mqtt

theorem ir_bits : ∀ x : UInt8, (⟨x⟩ : SocketInterrupt).disconRaised = Spec.Mqtt.discon x ∧ (⟨x⟩ : SocketInterrupt).conRaised = Spec.Mqtt.con x ∧
    (⟨x⟩ : SocketInterrupt).timeoutRaised = Spec.Mqtt.timeout x :=
  forall_u8 (p := fun x => (⟨x⟩ : SocketInterrupt).disconRaised = Spec.Mqtt.discon x ∧ (⟨x⟩ : SocketInterrupt).conRaised = Spec.Mqtt.con x ∧
    (⟨x⟩ : SocketInterrupt).timeoutRaised = Spec.Mqtt.timeout x) (by decide +kernel)

theorem isVbi_append_inj {a b x y : Bytes} {n m : Nat} (ha : Spec.Mqtt.IsVbi a n) (hb : Spec.Mqtt.IsVbi b m) (h : a ++ x = b ++ y) :
    a = b ∧ x = y := by
  induction ha generalizing b m with
  | last v hv =>
    cases hb with
    | last u hu => simp at h; exact ⟨by rw [h.1], h.2⟩
    | more u hu hb => simp at h; obtain ⟨rfl, -⟩ := h; omega
  | more v hv ha ih =>
    cases hb with
    | last u hu => simp at h; obtain ⟨rfl, -⟩ := h; omega
    | more u hu hb =>
      simp at h
      obtain ⟨rfl, h⟩ := h
      obtain ⟨rfl, rfl⟩ := ih hb h
      exact ⟨rfl, rfl⟩

theorem packet_inj {t f : Nat} {a b : Bytes} (h : Spec.Mqtt.packet t f a = Spec.Mqtt.packet t f b) : a = b := by
  unfold Spec.Mqtt.packet at h
  simp at h
  exact (isVbi_append_inj (vbi_isVbi _) (vbi_isVbi _) h).2

theorem u16_inj {a b : Nat} (ha : a < 65536) (hb : b < 65536) (h : Spec.Mqtt.u16 a = Spec.Mqtt.u16 b) : a = b := by
  unfold Spec.Mqtt.u16 at h
  simp at h
  have h1 := congrArg UInt8.toNat h.1
  have h2 := congrArg UInt8.toNat h.2
  simp at h1 h2
  omega

theorem str_append_inj {a b x y : Bytes} (ha : a.length < 65536) (hb : b.length < 65536) (h : Spec.Mqtt.str a ++ x = Spec.Mqtt.str b ++ y) :
    a = b ∧ x = y := by
  unfold Spec.Mqtt.str at h
  rw [List.append_assoc, List.append_assoc] at h
  have h1 := List.append_inj h (by simp [Spec.Mqtt.u16])
  have h2 := u16_inj ha hb h1.1
  exact List.append_inj h1.2 h2

/-- C45: what a packet of the specification says is unambiguous: two PUBLISH packets, two SUBSCRIBE packets, two UNSUBSCRIBE
packets or two CONNECT packets that are equal have the same topic and payload, identifier, filter and options, or client
identifier. -/
theorem C45_unambiguous :
    (∀ t p t' p' : Bytes, t.length < 65536 → t'.length < 65536 → Spec.Mqtt.publish t p = Spec.Mqtt.publish t' p' → t = t' ∧ p = p') ∧
    (∀ i f o i' f' o', i < 65536 → i' < 65536 → f.length < 65536 → f'.length < 65536 → o < 256 → o' < 256 →
      Spec.Mqtt.subscribe i f o = Spec.Mqtt.subscribe i' f' o' → i = i' ∧ f = f' ∧ o = o') ∧
    (∀ i f i' f', i < 65536 → i' < 65536 → f.length < 65536 → f'.length < 65536 →
      Spec.Mqtt.unsubscribe i f = Spec.Mqtt.unsubscribe i' f' → i = i' ∧ f = f') ∧
    (∀ k m c k' m' c', k < 65536 → k' < 65536 → m < 4294967296 → m' < 4294967296 → c.length < 65536 → c'.length < 65536 →
      Spec.Mqtt.connect k m c = Spec.Mqtt.connect k' m' c' → k = k' ∧ m = m' ∧ c = c') := by
  refine ⟨?_, ?_, ?_, ?_⟩
  · intro t p t' p' ht ht' h
    have h := packet_inj h
    simp only [List.length_nil, vbi_zero, List.append_assoc] at h
    have := str_append_inj ht ht' h
    simpa using this
  · intro i f o i' f' o' hi hi' hf hf' ho ho' h
    have h := packet_inj h
    simp only [List.append_assoc] at h
    have h1 := List.append_inj h (by simp [Spec.Mqtt.u16])
    simp only [List.cons_append, List.nil_append, List.cons.injEq, true_and] at h1
    have h2 := str_append_inj hf hf' h1.2
    simp at h2
    refine ⟨u16_inj hi hi' h1.1, h2.1, ?_⟩
    have := congrArg UInt8.toNat h2.2
    simp at this
    omega
  · intro i f i' f' hi hi' hf hf' h
    have h := packet_inj h
    simp only [List.append_assoc] at h
    have h1 := List.append_inj h (by simp [Spec.Mqtt.u16])
    simp only [List.cons_append, List.nil_append, List.cons.injEq, true_and] at h1
    have h2 := str_append_inj (x := []) (y := []) hf hf' (by simpa using h1.2)
    exact ⟨u16_inj hi hi' h1.1, h2.1⟩
  · intro k m c k' m' c' hk hk' hm hm' hc hc' h
    have h := packet_inj h
    simp only [List.append_assoc] at h
    have h1 := List.append_inj (List.append_inj (List.append_inj h rfl).2 rfl).2 (by simp [Spec.Mqtt.u16])
    have h2 := List.append_inj (List.append_inj h1.2 rfl).2 rfl
    have h3 := List.append_inj h2.2 (by simp [Spec.Mqtt.u16])
    have h4 := List.append_inj h3.2 (by simp [Spec.Mqtt.u16])
    have h5 := str_append_inj (x := []) (y := []) hc hc' (by simpa using h4.2)
    have a1 := u16_inj (by omega) (by omega) h3.1
    have a2 : m % 65536 = m' % 65536 := by
      apply u16_inj (by omega) (by omega)
      have := h4.1
      unfold Spec.Mqtt.u16 at this ⊢
      simp at this ⊢
      obtain ⟨b1, b2⟩ := this
      have b1 := congrArg UInt8.toNat b1
      have b2 := congrArg UInt8.toNat b2
      simp at b1 b2
      constructor <;> (apply UInt8.toNat_inj.mp; simp; omega)
    exact ⟨u16_inj hk hk' h1.1, by omega, h5.1⟩

/-- Sending a packet and what it becomes for the client. -/
theorem mapPacket_run {sn : Sn} {w : World} (h : TxState w.chip sn.idx) {p : WProg Unit} {bs : Bytes} (hp : EmitsAt 0 p bs) :
    ∃ r w', socketWriter worldBus sn w = (.ok r, w.tick) ∧ TxKept sn.idx w w' ∧
      ((mapW5500 (sendPacket worldBus r p) w.tick = (.ok (.ok ()), w') ∧ TxState w'.chip sn.idx ∧ bs.length ≤ w.chip.txSize sn.idx ∧
        w'.chip.sent = w.chip.sent ++ [⟨sn.idx, w.chip.destIp sn.idx, w.chip.destPort sn.idx, bs⟩]) ∨
       (mapW5500 (sendPacket worldBus r p) w.tick = (.ok (.error .outOfMemory), w') ∧ w'.chip.sent = w.chip.sent ∧
        w.chip.txFsr sn.idx < bs.length)) := by
  obtain ⟨r, h1, ⟨w', h2, h3, h4, h5, h6⟩ | ⟨w', h2, h3, h4, h5⟩⟩ := packet_run h hp
  · exact ⟨r, w', h1, h6, .inl ⟨by unfold mapW5500; rw [h2], h3, h4, h5⟩⟩
  · exact ⟨r, w', h1, h5, .inr ⟨by unfold mapW5500; rw [h2], h3, h4⟩⟩

theorem vbi_mono (a b : Nat) (h : a ≤ b) : (Spec.Mqtt.vbi a).length ≤ (Spec.Mqtt.vbi b).length := by
  induction a using Nat.strongRecOn generalizing b with
  | _ a ih =>
    rw [Spec.Mqtt.vbi.eq_1 a, Spec.Mqtt.vbi.eq_1 b]
    by_cases h1 : a < 128
    · rw [if_pos h1]
      by_cases h2 : b < 128
      · rw [if_pos h2]; exact Nat.le_refl _
      · rw [if_neg h2]; simp
    · rw [if_neg h1, if_neg (by omega)]
      have := ih (a / 128) (by omega) (b / 128) (by omega)
      simpa using this

/-- C45, PUBLISH: with an idle transmit buffer, a connected client either transmits exactly the packet for this topic and
payload, or returns an out-of-memory error and transmits nothing, the latter only if the packet is longer than the free
space.  (In particular a topic or payload is never truncated.)  The client does not change. -/
theorem C45_publish (topic payload : Bytes) (w : World) (c : Client) (hc : c.isConnected = true) (ht : TxState w.chip c.sn.toU8.toNat) :
    let k := c.sn.toU8.toNat
    let r := publish worldBus topic payload (w, c)
    let pkt := Spec.Mqtt.publish topic payload
    r.2.2 = c ∧
      ((r.1 = .ok (.ok ()) ∧ r.2.1.chip.sent = w.chip.sent ++ [⟨k, w.chip.destIp k, w.chip.destPort k, pkt⟩] ∧ TxState r.2.1.chip k) ∨
       (r.1 = .ok (.error .outOfMemory) ∧ r.2.1.chip.sent = w.chip.sent ∧ w.chip.txFsr k < pkt.length)) := by
  change TxState w.chip c.sn.idx at ht
  intro k r pkt
  have hg : (getC : M (World × Client) Client) (w, c) = (.ok c, (w, c)) := rfl
  obtain ⟨rd, w', h1, h2, h3⟩ := mapPacket_run ht (emits_publish topic payload 0)
  have hr : r = onBus (mapW5500 (sendPacket worldBus rd (publishProg topic payload))) (w.tick, c) := by
    change publish worldBus topic payload (w, c) = _
    unfold publish
    rw [M.bind_ok hg, if_pos hc, M.bind_ok (onBus_ok h1)]
  have hlen : (Spec.Mqtt.publish (topic.take 65535) (payload.take 65535)).length ≤ pkt.length := by
    change _ ≤ (Spec.Mqtt.publish topic payload).length
    have h1 := vbi_mono ((Spec.Mqtt.str (topic.take 65535) ++ (Spec.Mqtt.vbi 0 ++ []) ++ payload.take 65535)).length
      ((Spec.Mqtt.str topic ++ (Spec.Mqtt.vbi 0 ++ []) ++ payload)).length (by simp [Spec.Mqtt.str, Spec.Mqtt.u16]; omega)
    unfold Spec.Mqtt.publish Spec.Mqtt.packet
    simp only [List.length_cons, List.length_append] at h1 ⊢
    simp [Spec.Mqtt.str, Spec.Mqtt.u16] at h1 ⊢
    omega
  rcases h3 with ⟨h3, h4, h5, h6⟩ | ⟨h3, h4, h5⟩
  · rw [onBus_ok h3] at hr
    rw [hr]
    refine ⟨rfl, .inl ⟨rfl, ?_, h4⟩⟩
    have hsz := ht.size_lt
    have hT : topic.take 65535 = topic := by
      apply List.take_of_length_le
      rcases Nat.lt_or_ge 65535 topic.length with hl | hl
      · simp [Spec.Mqtt.publish, Spec.Mqtt.packet, Spec.Mqtt.str, Spec.Mqtt.u16] at h5; omega
      · exact hl
    have hP : payload.take 65535 = payload := by
      apply List.take_of_length_le
      rcases Nat.lt_or_ge 65535 payload.length with hl | hl
      · simp [Spec.Mqtt.publish, Spec.Mqtt.packet, Spec.Mqtt.str, Spec.Mqtt.u16] at h5; omega
      · exact hl
    rw [hT, hP] at h6
    exact h6
  · rw [onBus_ok h3] at hr
    rw [hr]
    exact ⟨rfl, .inr ⟨rfl, h4, Nat.lt_of_lt_of_le h5 hlen⟩⟩

theorem subscribe_run (dbg : Bool) (filter : Bytes) (w : World) (c : Client) (id : UInt16) (ht : TxState w.chip c.sn.idx) :
    ∃ r w', socketWriter worldBus c.sn w = (.ok r, w.tick) ∧ TxKept c.sn.idx w w' ∧
      ((mapW5500 (sendPacket worldBus r (subscribeProg dbg filter id)) w.tick = (.ok (.ok ()), w') ∧ TxState w'.chip c.sn.idx ∧
        w'.chip.sent = w.chip.sent ++ [⟨c.sn.idx, w.chip.destIp c.sn.idx, w.chip.destPort c.sn.idx, Spec.Mqtt.subscribe id.toNat filter (Spec.Mqtt.options 0 1 0 2)⟩]) ∨
       (mapW5500 (sendPacket worldBus r (subscribeProg dbg filter id)) w.tick = (.ok (.error .outOfMemory), w') ∧ w'.chip.sent = w.chip.sent ∧
        w.chip.txFsr c.sn.idx < (Spec.Mqtt.subscribe id.toNat filter (Spec.Mqtt.options 0 1 0 2)).length) ∨
       (mapW5500 (sendPacket worldBus r (subscribeProg dbg filter id)) w.tick = (.error .panic, w') ∧ w'.chip.sent = w.chip.sent ∧
        dbg = true ∧ 65532 < filter.length)) := by
  by_cases hl : filter.length ≤ 65532
  · obtain ⟨r, w', h1, h2, ⟨h3, h4, h5, h6⟩ | ⟨h3, h4, h5⟩⟩ := mapPacket_run ht (subscribe_fits dbg filter id 0 hl)
    · exact ⟨r, w', h1, h2, .inl ⟨h3, h4, h6⟩⟩
    · exact ⟨r, w', h1, h2, .inr (.inl ⟨h3, h4, h5⟩)⟩
  · have hsz := ht.size_lt
    rcases subscribe_long dbg filter id 0 with ⟨h1, h2⟩ | ⟨bs, h1, h2⟩
    · obtain ⟨r, img, e, -⟩ := run_socketWriter ht
      refine ⟨r, w.tick, e, TxKept.tick _ w, .inr (.inr ⟨?_, tick_sent w, h2, by omega⟩)⟩
      rw [h1]; rfl
    · obtain ⟨r, w', h1, h2, ⟨h3, h4, h5, h6⟩ | ⟨h3, h4, h5⟩⟩ := mapPacket_run ht h2
      · omega
      · refine ⟨r, w', h1, h2, .inr (.inl ⟨h3, h4, ?_⟩)⟩
        have := ht.fsr_le
        have : filter.length + 3 ≤ (Spec.Mqtt.subscribe id.toNat filter (Spec.Mqtt.options 0 1 0 2)).length := by
          simp [Spec.Mqtt.subscribe, Spec.Mqtt.packet, Spec.Mqtt.str, Spec.Mqtt.u16]; omega
        omega

/-- C45, SUBSCRIBE: with an idle transmit buffer and a filter that is not empty, a connected client either transmits exactly the packet
for this filter and the identifier it returns, or returns an out-of-memory error and transmits nothing, the latter only if the packet
is longer than the free space; or, in a debug build and with a filter longer than any transmit buffer, it panics.  Only the identifier
of the client changes: it is the one of the packet. -/
theorem C45_subscribe (dbg : Bool) (filter : Bytes) (w : World) (c : Client) (hc : c.isConnected = true) (ht : TxState w.chip c.sn.toU8.toNat)
    (hf : filter ≠ []) :
    let k := c.sn.toU8.toNat
    let r := subscribe dbg worldBus filter (w, c)
    let id := r.2.2.pktId
    let pkt := Spec.Mqtt.subscribe id.toNat filter (Spec.Mqtt.options 0 1 0 2)
    r.2.2 = { c with pktId := id } ∧
      ((r.1 = .ok (.ok id) ∧ r.2.1.chip.sent = w.chip.sent ++ [⟨k, w.chip.destIp k, w.chip.destPort k, pkt⟩] ∧ TxState r.2.1.chip k) ∨
       (r.1 = .ok (.error .outOfMemory) ∧ r.2.1.chip.sent = w.chip.sent ∧ w.chip.txFsr k < pkt.length) ∨
       (r.1 = .error .panic ∧ r.2.1.chip.sent = w.chip.sent ∧ dbg = true ∧ 65532 < filter.length)) := by
  change TxState w.chip c.sn.idx at ht
  intro k r id pkt
  have hg : ∀ x : World × Client, (getC : M (World × Client) Client) x = (.ok x.2, x) := fun _ => rfl
  obtain ⟨rd, w', h1, h2, h3⟩ := subscribe_run dbg filter w c c.nextPktId.pktId ht
  have hr : r = (onBus (mapW5500 (sendPacket worldBus rd (subscribeProg dbg filter c.nextPktId.pktId))) >>= fun x =>
      pure (x.map fun _ => c.nextPktId.pktId)) (w.tick, c.nextPktId) := by
    change subscribe dbg worldBus filter (w, c) = _
    unfold subscribe sendFilter
    rw [M.bind_ok (hg (w, c))]
    dsimp only
    rw [if_pos hc, M.bind_ok (onBus_ok h1),
      M.bind_ok (show modC Client.nextPktId (w.tick, c) = (.ok (), (w.tick, c.nextPktId)) from rfl), M.bind_ok (hg _)]
    dsimp only
    rw [if_neg (by simpa using hf)]
  rcases h3 with ⟨h3, h4, h5⟩ | ⟨h3, h4, h5⟩ | ⟨h3, h4, h5, h6⟩
  · rw [M.bind_ok (onBus_ok h3)] at hr
    have hid : id = c.nextPktId.pktId := by change r.2.2.pktId = _; rw [hr]; rfl
    change _ ∧ ((_ ∧ _ = _ ++ [Spec.Sent.mk _ _ _ (Spec.Mqtt.subscribe id.toNat filter (Spec.Mqtt.options 0 1 0 2))] ∧ _) ∨ _)
    rw [hid, hr]
    exact ⟨rfl, .inl ⟨rfl, h5, h4⟩⟩
  · rw [M.bind_ok (onBus_ok h3)] at hr
    have hid : id = c.nextPktId.pktId := by change r.2.2.pktId = _; rw [hr]; rfl
    refine ⟨by rw [hid, hr]; rfl, .inr (.inl ⟨by rw [hr]; rfl, by rw [hr]; exact h4, ?_⟩)⟩
    change _ < (Spec.Mqtt.subscribe id.toNat filter (Spec.Mqtt.options 0 1 0 2)).length
    rw [hid]; exact h5
  · rw [M.bind_error (onBus_error h3)] at hr
    have hid : id = c.nextPktId.pktId := by change r.2.2.pktId = _; rw [hr]
    exact ⟨by rw [hid, hr]; rfl, .inr (.inr ⟨by rw [hr], by rw [hr]; exact h4, h5, h6⟩)⟩

theorem unsubscribe_run (dbg : Bool) (filter : Bytes) (w : World) (c : Client) (id : UInt16) (ht : TxState w.chip c.sn.idx) :
    ∃ r w', socketWriter worldBus c.sn w = (.ok r, w.tick) ∧ TxKept c.sn.idx w w' ∧
      ((mapW5500 (sendPacket worldBus r (unsubscribeProg dbg filter id)) w.tick = (.ok (.ok ()), w') ∧ TxState w'.chip c.sn.idx ∧
        w'.chip.sent = w.chip.sent ++ [⟨c.sn.idx, w.chip.destIp c.sn.idx, w.chip.destPort c.sn.idx, Spec.Mqtt.unsubscribe id.toNat filter⟩]) ∨
       (mapW5500 (sendPacket worldBus r (unsubscribeProg dbg filter id)) w.tick = (.ok (.error .outOfMemory), w') ∧ w'.chip.sent = w.chip.sent ∧
        w.chip.txFsr c.sn.idx < (Spec.Mqtt.unsubscribe id.toNat filter).length) ∨
       (mapW5500 (sendPacket worldBus r (unsubscribeProg dbg filter id)) w.tick = (.error .panic, w') ∧ w'.chip.sent = w.chip.sent ∧
        dbg = true ∧ 65533 < filter.length)) := by
  by_cases hl : filter.length ≤ 65533
  · obtain ⟨r, w', h1, h2, ⟨h3, h4, h5, h6⟩ | ⟨h3, h4, h5⟩⟩ := mapPacket_run ht (unsubscribe_fits dbg filter id 0 hl)
    · exact ⟨r, w', h1, h2, .inl ⟨h3, h4, h6⟩⟩
    · exact ⟨r, w', h1, h2, .inr (.inl ⟨h3, h4, h5⟩)⟩
  · have hsz := ht.size_lt
    rcases unsubscribe_long dbg filter id 0 with ⟨h1, h2⟩ | ⟨bs, h1, h2⟩
    · obtain ⟨r, img, e, -⟩ := run_socketWriter ht
      refine ⟨r, w.tick, e, TxKept.tick _ w, .inr (.inr ⟨?_, tick_sent w, h2, by omega⟩)⟩
      rw [h1]; rfl
    · obtain ⟨r, w', h1, h2, ⟨h3, h4, h5, h6⟩ | ⟨h3, h4, h5⟩⟩ := mapPacket_run ht h2
      · omega
      · refine ⟨r, w', h1, h2, .inr (.inl ⟨h3, h4, ?_⟩)⟩
        have := ht.fsr_le
        have : filter.length + 3 ≤ (Spec.Mqtt.unsubscribe id.toNat filter).length := by
          simp [Spec.Mqtt.unsubscribe, Spec.Mqtt.packet, Spec.Mqtt.str, Spec.Mqtt.u16]; omega
        omega

/-- C45, UNSUBSCRIBE: with an idle transmit buffer and a filter that is not empty, a connected client either transmits exactly the packet
for this filter and the identifier it returns, or returns an out-of-memory error and transmits nothing, the latter only if the packet
is longer than the free space; or, in a debug build and with a filter longer than any transmit buffer, it panics.  Only the identifier
of the client changes: it is the one of the packet. -/
theorem C45_unsubscribe (dbg : Bool) (filter : Bytes) (w : World) (c : Client) (hc : c.isConnected = true) (ht : TxState w.chip c.sn.toU8.toNat)
    (hf : filter ≠ []) :
    let k := c.sn.toU8.toNat
    let r := unsubscribe dbg worldBus filter (w, c)
    let id := r.2.2.pktId
    let pkt := Spec.Mqtt.unsubscribe id.toNat filter
    r.2.2 = { c with pktId := id } ∧
      ((r.1 = .ok (.ok id) ∧ r.2.1.chip.sent = w.chip.sent ++ [⟨k, w.chip.destIp k, w.chip.destPort k, pkt⟩] ∧ TxState r.2.1.chip k) ∨
       (r.1 = .ok (.error .outOfMemory) ∧ r.2.1.chip.sent = w.chip.sent ∧ w.chip.txFsr k < pkt.length) ∨
       (r.1 = .error .panic ∧ r.2.1.chip.sent = w.chip.sent ∧ dbg = true ∧ 65533 < filter.length)) := by
  change TxState w.chip c.sn.idx at ht
  intro k r id pkt
  have hg : ∀ x : World × Client, (getC : M (World × Client) Client) x = (.ok x.2, x) := fun _ => rfl
  obtain ⟨rd, w', h1, h2, h3⟩ := unsubscribe_run dbg filter w c c.nextPktId.pktId ht
  have hr : r = (onBus (mapW5500 (sendPacket worldBus rd (unsubscribeProg dbg filter c.nextPktId.pktId))) >>= fun x =>
      pure (x.map fun _ => c.nextPktId.pktId)) (w.tick, c.nextPktId) := by
    change unsubscribe dbg worldBus filter (w, c) = _
    unfold unsubscribe sendFilter
    rw [M.bind_ok (hg (w, c))]
    dsimp only
    rw [if_pos hc, M.bind_ok (onBus_ok h1),
      M.bind_ok (show modC Client.nextPktId (w.tick, c) = (.ok (), (w.tick, c.nextPktId)) from rfl), M.bind_ok (hg _)]
    dsimp only
    rw [if_neg (by simpa using hf)]
  rcases h3 with ⟨h3, h4, h5⟩ | ⟨h3, h4, h5⟩ | ⟨h3, h4, h5, h6⟩
  · rw [M.bind_ok (onBus_ok h3)] at hr
    have hid : id = c.nextPktId.pktId := by change r.2.2.pktId = _; rw [hr]; rfl
    change _ ∧ ((_ ∧ _ = _ ++ [Spec.Sent.mk _ _ _ (Spec.Mqtt.unsubscribe id.toNat filter)] ∧ _) ∨ _)
    rw [hid, hr]
    exact ⟨rfl, .inl ⟨rfl, h5, h4⟩⟩
  · rw [M.bind_ok (onBus_ok h3)] at hr
    have hid : id = c.nextPktId.pktId := by change r.2.2.pktId = _; rw [hr]; rfl
    refine ⟨by rw [hid, hr]; rfl, .inr (.inl ⟨by rw [hr]; rfl, by rw [hr]; exact h4, ?_⟩)⟩
    change _ < (Spec.Mqtt.unsubscribe id.toNat filter).length
    rw [hid]; exact h5
  · rw [M.bind_error (onBus_error h3)] at hr
    have hid : id = c.nextPktId.pktId := by change r.2.2.pktId = _; rw [hr]
    exact ⟨by rw [hid, hr]; rfl, .inr (.inr ⟨by rw [hr], by rw [hr]; exact h4, h5, h6⟩)⟩

theorem rxMax_eq (x : UInt8) (h : 65536 % (1024 * x.toNat) = 0) (hl : 1024 * x.toNat ≤ 16384) :
    (rxMax (BufferSize.tryFrom x)).toNat = 1024 * x.toNat :=
  forall_u8 (p := fun x => 65536 % (1024 * x.toNat) = 0 → 1024 * x.toNat ≤ 16384 → (rxMax (BufferSize.tryFrom x)).toNat = 1024 * x.toNat)
    (by decide +kernel) x h hl

/-- What `publish` leaves alone. -/
theorem publish_kept (topic payload : Bytes) (w : World) (c : Client) (hc : c.isConnected = true) (ht : TxState w.chip c.sn.idx) :
    TxKept c.sn.idx w (publish worldBus topic payload (w, c)).2.1 := by
  have hg : (getC : M (World × Client) Client) (w, c) = (.ok c, (w, c)) := rfl
  obtain ⟨rd, w', h1, h2, h3⟩ := mapPacket_run ht (emits_publish topic payload 0)
  unfold publish
  rw [M.bind_ok hg, if_pos hc, M.bind_ok (onBus_ok h1)]
  rcases h3 with ⟨h3, -⟩ | ⟨h3, -⟩ <;> rw [onBus_ok h3] <;> exact h2

theorem sendFilter_start (filter : Bytes) (p : UInt16 → WProg Unit) (w : World) (c : Client) (rd : Ptrs) (hc : c.isConnected = true)
    (h1 : socketWriter worldBus c.sn w = (.ok rd, w.tick)) :
    sendFilter worldBus filter p (w, c) = (if filter.isEmpty then pure (.ok 0)
      else onBus (mapW5500 (sendPacket worldBus rd (p c.nextPktId.pktId))) >>= fun x => pure (x.map fun _ => c.nextPktId.pktId)) (w.tick, c.nextPktId) := by
  have hg : ∀ x : World × Client, (getC : M (World × Client) Client) x = (.ok x.2, x) := fun _ => rfl
  unfold sendFilter
  rw [M.bind_ok (hg (w, c))]
  dsimp only
  rw [if_pos hc, M.bind_ok (onBus_ok h1),
    M.bind_ok (show modC Client.nextPktId (w.tick, c) = (.ok (), (w.tick, c.nextPktId)) from rfl), M.bind_ok (hg _)]

/-- What `subscribe` leaves alone. -/
theorem subscribe_kept (dbg : Bool) (filter : Bytes) (w : World) (c : Client) (hc : c.isConnected = true) (ht : TxState w.chip c.sn.idx) :
    TxKept c.sn.idx w (subscribe dbg worldBus filter (w, c)).2.1 := by
  obtain ⟨rd, w', h1, h2, h3⟩ := subscribe_run dbg filter w c c.nextPktId.pktId ht
  unfold subscribe
  rw [sendFilter_start _ _ _ _ _ hc h1]
  split
  · exact TxKept.tick _ w
  · rcases h3 with ⟨h3, -⟩ | ⟨h3, -⟩ | ⟨h3, -⟩
    · rw [M.bind_ok (onBus_ok h3)]; exact h2
    · rw [M.bind_ok (onBus_ok h3)]; exact h2
    · rw [M.bind_error (onBus_error h3)]; exact h2

/-- What `unsubscribe` leaves alone. -/
theorem unsubscribe_kept (dbg : Bool) (filter : Bytes) (w : World) (c : Client) (hc : c.isConnected = true) (ht : TxState w.chip c.sn.idx) :
    TxKept c.sn.idx w (unsubscribe dbg worldBus filter (w, c)).2.1 := by
  obtain ⟨rd, w', h1, h2, h3⟩ := unsubscribe_run dbg filter w c c.nextPktId.pktId ht
  unfold unsubscribe
  rw [sendFilter_start _ _ _ _ _ hc h1]
  split
  · exact TxKept.tick _ w
  · rcases h3 with ⟨h3, -⟩ | ⟨h3, -⟩ | ⟨h3, -⟩
    · rw [M.bind_ok (onBus_ok h3)]; exact h2
    · rw [M.bind_ok (onBus_ok h3)]; exact h2
    · rw [M.bind_error (onBus_error h3)]; exact h2

/-- The empty filter: nothing is sent, and the result is the identifier 0. -/
theorem sendFilter_empty (p : UInt16 → WProg Unit) (w : World) (c : Client) (hc : c.isConnected = true) (ht : TxState w.chip c.sn.idx) :
    sendFilter worldBus [] p (w, c) = (.ok (.ok 0), (w.tick, c.nextPktId)) := by
  obtain ⟨rd, w', h1, -⟩ := subscribe_run false [] w c c.nextPktId.pktId ht
  rw [sendFilter_start _ _ _ _ _ hc h1]
  rfl

/-- Sending CONNECT. -/
theorem sendConnect_run (secs : UInt32) (w : World) (c : Client) (ht : TxState w.chip c.sn.idx)
    (hid : ∀ i, c.clientId = some i → i.length ≤ 23) :
    ∃ w' m, TxKept c.sn.idx w w' ∧ (65536 % w.chip.rxSize c.sn.idx = 0 → w.chip.rxSize c.sn.idx ≤ 16384 → m = w.chip.rxSize c.sn.idx) ∧
      ((sendConnect worldBus secs (w, c) = (.ok (.ok 10), (w', { c with state := .waitConAck, timeout := some secs })) ∧
        TxState w'.chip c.sn.idx ∧ w'.chip.sent = w.chip.sent ++ [⟨c.sn.idx, w.chip.destIp c.sn.idx, w.chip.destPort c.sn.idx,
          Spec.Mqtt.connect 900 m (c.clientId.getD [])⟩]) ∨
       (sendConnect worldBus secs (w, c) = (.ok (.error .outOfMemory), (w', c)) ∧ w'.chip.sent = w.chip.sent ∧
        w.chip.txFsr c.sn.idx < (Spec.Mqtt.connect 900 m (c.clientId.getD [])).length)) := by
  have hg : (getC : M (World × Client) Client) (w, c) = (.ok c, (w, c)) := rfl
  obtain ⟨rd, w', h1, h2, h3⟩ := mapPacket_run ht.tick
    (emits_connect c.clientId (rxMax (BufferSize.tryFrom (w.tick.chip.mem (4 * c.sn.idx + 1) 0x1E))) 0 hid)
  refine ⟨w', (rxMax (BufferSize.tryFrom (w.tick.chip.mem (4 * c.sn.idx + 1) 0x1E))).toNat, (TxKept.tick _ w).trans h2, ?_, ?_⟩
  rotate_left
  · have hr : sendConnect worldBus secs (w, c) = (onBus (mapW5500 (sendPacket worldBus rd (connectProg c.clientId
        (rxMax (BufferSize.tryFrom (w.tick.chip.mem (4 * c.sn.idx + 1) 0x1E)))))) >>= fun x =>
          match x with
          | .error e => pure (.error e)
          | .ok () => modC (Client.setStateWithTimeout .waitConAck secs) >>= fun _ => pure (.ok timeoutSecs)) (w.tick.tick, c) := by
      unfold sendConnect
      rw [M.bind_ok hg, M.bind_ok (onBus_ok (run_snRxbufSize c.sn w)), M.bind_ok (onBus_ok h1)]
      rfl
    rcases h3 with ⟨h3, h4, h5, h6⟩ | ⟨h3, h4, h5⟩
    · left
      rw [hr, M.bind_ok (onBus_ok h3)]
      refine ⟨rfl, h4, ?_⟩
      rw [h6, tick_sent, tick_destIp, tick_destPort]
    · right
      rw [hr, M.bind_ok (onBus_ok h3)]
      refine ⟨rfl, by rw [h4, tick_sent], ?_⟩
      have := tick_txFsr_ge ht
      omega
  · intro ha hb
    have hm : w.tick.chip.rxSize c.sn.idx = w.chip.rxSize c.sn.idx := tick_rxSize w _
    rw [← hm] at ha hb ⊢
    exact rxMax_eq _ ha hb

/-- C45, CONNECT: with an idle transmit buffer, when the connection is established (interrupt CON, and not DISCON) `process` either
transmits exactly the CONNECT packet with a keep-alive interval of 15 minutes, the size of the receive buffer as the maximum packet
size and the client identifier set by the user (or an empty one), and waits ten seconds for the answer; or it returns an out-of-memory
error, transmits nothing and the client does not change, only if the packet is longer than the free space. -/
theorem C45_connect (dbg : Bool) (fuel : Nat) (secs : UInt32) (w : World) (c : Client) (hc : c.state ≠ .init)
    (ht : TxState w.chip c.sn.toU8.toNat) (hrx : 65536 % w.chip.rxSize c.sn.toU8.toNat = 0) (hrx' : w.chip.rxSize c.sn.toU8.toNat ≤ 16384)
    (hid : ∀ i, c.clientId = some i → ∃ s, clientIdNew s = some i)
    (hcon : Spec.Mqtt.con (Spec.Mqtt.interrupts w.tick.chip c.sn.toU8.toNat) = true)
    (hdis : Spec.Mqtt.discon (Spec.Mqtt.interrupts w.tick.chip c.sn.toU8.toNat) = false) :
    let k := c.sn.toU8.toNat
    let r := process dbg fuel worldBus secs (w, c)
    let pkt := Spec.Mqtt.connect 900 (w.chip.rxSize k) (c.clientId.getD [])
    (r.1 = .ok (.ok (.callAfter 10)) ∧ r.2.2 = { c with state := .waitConAck, timeout := some secs } ∧
      r.2.1.chip.sent = w.chip.sent ++ [⟨k, w.chip.destIp k, w.chip.destPort k, pkt⟩] ∧ TxState r.2.1.chip k) ∨
    (r.1 = .ok (.error .outOfMemory) ∧ r.2.2 = c ∧ r.2.1.chip.sent = w.chip.sent ∧ w.chip.txFsr k < pkt.length) := by
  change TxState w.chip c.sn.idx at ht
  intro k r pkt
  obtain ⟨w1, hw, hp⟩ := process_run dbg fuel secs w c hc
  obtain ⟨i1, i2, i3⟩ := ir_bits (w.tick.chip.mem (4 * c.sn.idx + 1) 2)
  have hlen : ∀ i, c.clientId = some i → i.length ≤ 23 := by
    intro i hi
    obtain ⟨s, hs⟩ := hid i hi
    unfold clientIdNew at hs
    split at hs
    · simp at hs
    · rename_i h1
      split at hs
      · simp at hs
      · simp at hs h1; subst hs; omega
  obtain ⟨w', m, h1, h2, h3⟩ := sendConnect_run secs w1 c (hw.tx ht) hlen
  have hm : m = w.chip.rxSize k := by
    rw [hw.rxs] at h2; exact h2 hrx hrx'
  have hr : r = (sendConnect worldBus secs >>= fun x => pure (x.map .callAfter)) (w1, c) := by
    change process dbg fuel worldBus secs (w, c) = _
    rw [hp]
    unfold onInterrupt
    rw [i1, i2, show Spec.Mqtt.discon (w.tick.chip.mem (4 * c.sn.idx + 1) 2) = false from hdis,
      show Spec.Mqtt.con (w.tick.chip.mem (4 * c.sn.idx + 1) 2) = true from hcon]
    rfl
  subst hm
  rcases h3 with ⟨h3, h4, h5⟩ | ⟨h3, h4, h5⟩
  · left
    rw [hr, M.bind_ok h3]
    refine ⟨rfl, rfl, ?_, h4⟩
    change w'.chip.sent = _
    rw [h5, hw.sent, hw.dip, hw.dport]
  · right
    rw [hr, M.bind_ok h3]
    refine ⟨rfl, rfl, h4.trans hw.sent, ?_⟩
    have := hw.free ht
    exact Nat.lt_of_le_of_lt this h5

/-! ## The hypotheses are met -/

/-- A device whose socket 3 is an established TCP connection to 10.0.0.1:1883 with buffers of 2 KiB, the interrupts `ir` and the unread
bytes `data`. -/
def tcpWorld (ir : UInt8) (data : Bytes) : World :=
  { chip :=
      { mem := fun b a =>
          if b = 13 then
            (if a = 0x1E ∨ a = 0x1F then 2 else if a = 0 then 1 else if a = 2 then ir else if a = 3 then 0x17 else if a = 0x20 then 8
             else if a = 0x0C then 10 else if a = 0x0F then 1 else if a = 0x10 then 7 else if a = 0x11 then 0x5B
             else if a = 0x26 ∨ a = 0x2A then UInt8.ofNat (data.length / 256)
             else if a = 0x27 ∨ a = 0x2B then UInt8.ofNat data.length else 0)
          else if b = 15 then data.getD a 0
          else 0
        sent := [], received := fun k => if k = 3 then data else [] }
    sched := [] }

/-- A client of that device. -/
def tcpClient (state : State) : Client := { Client.new .sn3 33333 ⟨⟨10, 0, 0, 1⟩, 1883⟩ with state := state, clientId := some [97, 98] }

theorem vbi_small {n : Nat} (h : n < 128) : Spec.Mqtt.vbi n = [UInt8.ofNat n] := by rw [Spec.Mqtt.vbi.eq_1, if_pos h]

example : TxState (tcpWorld 1 []).chip 3 := ⟨by decide +kernel, by decide +kernel, by decide +kernel, by decide +kernel⟩

/-- A message is published. -/
example : (tcpClient .ready).isConnected = true ∧
    (publish worldBus [116] [1, 2, 3] (tcpWorld 0 [], tcpClient .ready)).1 = .ok (.ok ()) ∧
    (publish worldBus [116] [1, 2, 3] (tcpWorld 0 [], tcpClient .ready)).2.1.chip.sent =
      [⟨3, [10, 0, 0, 1], 1883, [0x30, 7, 0, 1, 116, 0, 1, 2, 3]⟩] := by decide +kernel
example : Spec.Mqtt.publish [116] [1, 2, 3] = [0x30, 7, 0, 1, 116, 0, 1, 2, 3] := by
  unfold Spec.Mqtt.publish Spec.Mqtt.packet Spec.Mqtt.str Spec.Mqtt.u16
  have h : Spec.Mqtt.vbi ([] : Bytes).length = [0] := vbi_small (by decide)
  rw [h, vbi_small (by decide)]
  decide
/-- A filter is subscribed to, and unsubscribed. -/
example : (subscribe true worldBus [116] (tcpWorld 0 [], tcpClient .ready)).1 = .ok (.ok 2) ∧
    (subscribe true worldBus [116] (tcpWorld 0 [], tcpClient .ready)).2.1.chip.sent =
      [⟨3, [10, 0, 0, 1], 1883, [0x82, 7, 0, 2, 0, 0, 1, 116, 0x24]⟩] ∧
    (unsubscribe true worldBus [116] (tcpWorld 0 [], tcpClient .ready)).2.1.chip.sent =
      [⟨3, [10, 0, 0, 1], 1883, [0xA2, 6, 0, 2, 0, 0, 1, 116]⟩] := by decide +kernel
/-- CONNECT is sent when the socket was connected. -/
example : Spec.Mqtt.con (Spec.Mqtt.interrupts (tcpWorld 1 []).tick.chip 3) = true ∧
    Spec.Mqtt.discon (Spec.Mqtt.interrupts (tcpWorld 1 []).tick.chip 3) = false ∧
    65536 % (tcpWorld 1 []).chip.rxSize 3 = 0 ∧ clientIdNew [97, 98] = some [97, 98] ∧
    (process true 1 worldBus 5 (tcpWorld 1 [], tcpClient .waitConInt)).2.1.chip.sent = [⟨3, [10, 0, 0, 1], 1883,
      [0x10, 20, 0, 4, 77, 81, 84, 84, 5, 2, 3, 132, 5, 0x27, 0, 0, 8, 0, 0, 2, 97, 98]⟩] := by decide +kernel

/-- C46, about what its statement leaves out: with an empty filter `subscribe` and `unsubscribe` send nothing and return 0, and use up an
identifier all the same. -/
theorem C46_empty_filter (dbg : Bool) (w : World) (c : Client) (hc : c.isConnected = true) (ht : TxState w.chip c.sn.toU8.toNat) :
    (subscribe dbg worldBus [] (w, c)).1 = .ok (.ok 0) ∧ (subscribe dbg worldBus [] (w, c)).2.2 = c.nextPktId ∧
    (subscribe dbg worldBus [] (w, c)).2.1.chip.sent = w.chip.sent ∧
    (unsubscribe dbg worldBus [] (w, c)).1 = .ok (.ok 0) ∧ (unsubscribe dbg worldBus [] (w, c)).2.2 = c.nextPktId ∧
    (unsubscribe dbg worldBus [] (w, c)).2.1.chip.sent = w.chip.sent := by
  obtain ⟨rd, w', h1, h2, -⟩ := subscribe_run dbg [] w c c.nextPktId.pktId ht
  have hs : w.tick.chip.sent = w.chip.sent := tick_sent w
  unfold subscribe unsubscribe
  rw [sendFilter_start _ _ _ _ _ hc h1, sendFilter_start _ _ _ _ _ hc h1]
  exact ⟨rfl, rfl, hs, rfl, rfl, hs⟩

end Verif.Thm
