import Verif.Proof.TlsOffer
/-!
# C89: a handshake with an honest server is completed
-/
namespace Verif.Tls
open Verif Hl
open _root_.Verif.Spec (World worldBus TxState RxState Queue Chip Mem HsMsg EnvStep)
open _root_.Verif.Spec.Tls (HelloBody ExtensionsBody serverFinished plaintextHandshake Answer)

variable {x : Crypto}

/-- Between two calls the steps `events` of the environment happen; `sched` will happen during the next call. -/
structure Pause where
  events : List EnvStep
  sched : List (List EnvStep)

/-- The world after the pause. -/
def Pause.after (q : Pause) (w : World) : World := { chip := q.events.foldl Chip.envStep w.chip, sched := q.sched }

/-- The connection is not interrupted: no CON, DISCON or TIMEOUT interrupt of socket `k` is raised. -/
def Pause.Calm (q : Pause) (k : Nat) : Prop := ∀ es ∈ q.events :: q.sched, ∀ bits, EnvStep.raise k bits ∈ es → Spec.Mqtt.quiet bits = true

theorem Pause.after_eq (q : Pause) (w : World) : q.after w = World.tick { w with sched := q.events :: q.sched } := rfl

theorem Pause.peace {q : Pause} {k : Nat} {w : World} (h : Peace k w) (hq : q.Calm k) : Peace k (q.after w) := by
  rw [q.after_eq]
  exact Peace.tick ⟨h.now, hq⟩

theorem Pause.received (q : Pause) (w : World) (k : Nat) : w.chip.received k <+: (q.after w).chip.received k := by
  rw [q.after_eq]
  exact tick_received_prefix { w with sched := q.events :: q.sched } k

theorem Pause.sent (q : Pause) (w : World) : (q.after w).chip.sent = w.chip.sent := by
  rw [q.after_eq]
  exact tick_sent { w with sched := q.events :: q.sched }

theorem Pause.rx (q : Pause) {w : World} {k p : Nat} (h : RxState w.chip k p) : RxState (q.after w).chip k p := by
  obtain ⟨base, h⟩ := h.at
  rw [q.after_eq]
  exact (RxAt.tick (w := { w with sched := q.events :: q.sched }) h).state

theorem Pause.tx (q : Pause) {w : World} {k : Nat} (h : TxState w.chip k) :
    TxState (q.after w).chip k ∧ w.chip.txFsr k ≤ (q.after w).chip.txFsr k := by
  rw [q.after_eq]
  exact ⟨TxState.tick (w := { w with sched := q.events :: q.sched }) h, tick_txFsr_ge (w := { w with sched := q.events :: q.sched }) h⟩

theorem Waits.pause {w : World} {c : Client x} {p : Nat} (h : Waits w c p) (q : Pause) : Waits (q.after w) c p :=
  ⟨h.receives, h.size, h.empty, q.rx h.rx, (q.tx h.tx).1⟩

theorem Offered.pause {w : World} {c : Client x} {p : Nat} {psk ch : Bytes} {s : x.Secret} (h : Offered w c p psk s ch) (q : Pause) :
    Offered (q.after w) c p psk s ch := ⟨h.waits.pause q, h.state, h.secret, h.transcript, h.derived⟩

theorem Keyed.pause {w : World} {c : Client x} {p : Nat} {st : TState} {psk dhe : Bytes} {hellos messages : List Bytes} {seq : UInt64}
    (h : Keyed w c p st psk dhe hellos messages seq) (q : Pause) : Keyed (q.after w) c p st psk dhe hellos messages seq :=
  ⟨h.waits.pause q, h.state, h.client, h.server, h.transcript, h.derived, h.readSeq, h.writeSeq⟩

theorem prefix_drop {a b l l' : Bytes} {p : Nat} (h : a ++ b <+: l.drop p) (hl : l <+: l') : b <+: l'.drop (p + a.length) := by
  obtain ⟨t, ht⟩ := h
  obtain ⟨t', rfl⟩ := hl
  by_cases hp : p ≤ l.length
  · rw [← List.drop_drop, List.drop_append_of_le_length hp, ← ht, List.append_assoc, List.append_assoc, List.drop_left]
    exact List.prefix_append _ _
  · rw [List.drop_eq_nil_of_le (by omega)] at ht
    simp only [List.append_eq_nil_iff] at ht
    rw [ht.1.2]
    exact List.nil_prefix

/-- A client that waits for its connection, between two connections: the receive buffer is at byte `p` and nothing has arrived. -/
structure Connecting (w : World) (c : Client x) (p : Nat) : Prop where
  state : c.state = .waitConInt
  fresh : c.ks.transcript = [] ∧ c.ks.writeSeq = 0
  host : c.hostname.length < 256
  size : c.rx.n ≤ 16384
  fits : 234 + c.hostname.length + c.identity.length ≤ c.rx.n
  rx : RxState w.chip c.sn.toU8.toNat p
  tx : TxState w.chip c.sn.toU8.toNat
  free : 234 + c.hostname.length + c.identity.length ≤ w.chip.txFsr c.sn.toU8.toNat
  none : (w.chip.received c.sn.toU8.toNat).length = p

/-- The socket reports that it is connected; it raises no DISCON or TIMEOUT interrupt, and nothing arrives during the call. -/
structure Connects (w : World) (c : Client x) : Prop where
  con : Spec.Mqtt.con (w.tick.chip.mem (4 * c.sn.toU8.toNat + 1) 2) = true
  discon : Spec.Mqtt.discon (w.tick.chip.mem (4 * c.sn.toU8.toNat + 1) 2) = false
  timeout : Spec.Mqtt.timeout (w.tick.chip.mem (4 * c.sn.toU8.toNat + 1) 2) = false
  calm : CalmAhead c.sn.toU8.toNat w
  still : Still c.sn.toU8.toNat w

/-- What the client has to offer. -/
def Client.offer (c : Client x) (rng : Rng x) : Spec.Tls.Offer :=
  { random := rng.random, host := c.hostname, publicKey := rng.publicKey, psk := c.psk, identity := c.identity, limit := c.rx.n - 22 }

theorem helloArgs_offer (c : Client x) (rng : Rng x) (h : 22 ≤ c.rx.n ∧ c.rx.n ≤ 32768) : (c.helloArgs rng).offer = c.offer rng := by
  unfold Client.helloArgs HelloArgs.offer Client.offer
  dsimp only
  rw [limit_toNat h]

/-- **C89.** A handshake with an honest server is completed: for every client that has just been connected, every client key, every server
key, every answer the client can accept that fits into its buffer, whatever else the environment does (other sockets, arrivals in several
pieces, acknowledgements) as long as the connection is not interrupted.  The first call sends exactly the ClientHello; when the records of
the server have arrived, the next three calls finish the handshake; the client sends exactly its Finished.  Then both sides have the same
keys, and the client is ready to receive application data.  (Release build.  In a debug build an assertion about the status of the socket
may fail.) -/
theorem C89_handshake_completes (hx : x.Standard) (fuel : Nat) (rng rng1 rng2 rng3 : Rng x) (hr : rng.Ok) (t0 t1 t2 t3 : UInt32) (w : World)
    (c : Client x) (p : Nat) (hc : Connecting w c p) (hi : Connects w c) (a : Answer) (pub : x.Public) (ha : Honest x a pub c.rx.n)
    (q1 q2 q3 : Pause) (h1 : q1.Calm c.sn.toU8.toNat) (h2 : q2.Calm c.sn.toU8.toNat) (h3 : q3.Calm c.sn.toU8.toNat) :
    let ch := (c.offer rng).hello
    let dhe := x.dh rng.secret pub
    let messages := [ch, a.sh, a.ee, a.fin c.psk dhe ch]
    let r0 := process false (fuel + 2) worldBus rng t0 (w, c)
    let r1 := process false (fuel + 2) worldBus rng1 t1 (q1.after r0.2.1, r0.2.2)
    let r2 := process false (fuel + 2) worldBus rng2 t2 (q2.after r1.2.1, r1.2.2)
    let r3 := process false (fuel + 2) worldBus rng3 t3 (q3.after r2.2.1, r2.2.2)
    r0.1 = .ok (.callAfter 10) ∧
    r0.2.1.chip.sent.map (·.payload) = w.chip.sent.map (·.payload) ++ [(c.offer rng).record] ∧
    (a.flight c.psk dhe ch <+: ((q1.after r0.2.1).chip.received c.sn.toU8.toNat).drop p →
      58 ≤ (q1.after r0.2.1).chip.txFsr c.sn.toU8.toNat →
      r1.1 = .ok (.callAfter 10) ∧ r2.1 = .ok (.callAfter 10) ∧ r3.1 = .ok .handshakeFinished ∧
      r3.2.1.chip.sent.map (·.payload) = w.chip.sent.map (·.payload) ++ [(c.offer rng).record, a.reply c.psk dhe ch] ∧
      r3.2.2.ks.clientTraffic = some (Spec.Tls.clientAppTraffic c.psk dhe messages) ∧ r3.2.2.ks.writeSeq = 0 ∧
      r3.2.2.ks.readSeq = 0 ∧ r3.2.2.sn = c.sn ∧ r3.2.2.rx.n = c.rx.n ∧ Peace c.sn.toU8.toNat r3.2.1 ∧
      Ready r3.2.1 r3.2.2 (Spec.Tls.serverAppTraffic c.psk dhe messages) (p + (a.flight c.psk dhe ch).length) []) := by
  intro ch dhe messages r0 r1 r2 r3
  have hfit := hc.fits
  obtain ⟨w0, c0, e0, k0, p0, o0, s0, -⟩ := process_offer hx false (fuel + 2) rng hr t0 hc.rx hc.tx hc.size hc.host hc.fresh hc.fits hc.free
    ⟨hi.con, hi.discon, hi.timeout⟩ hi.calm hi.still (by have := hc.none; show (w.chip.received c.sn.toU8.toNat).length < _; omega)
  rw [helloArgs_offer c rng ⟨by omega, by have := hc.size; omega⟩] at o0 s0
  have hr0 : r0 = (.ok (.callAfter 10), (w0, c0)) := e0
  rw [hr0]
  refine ⟨rfl, s0, fun hf hroom => ?_⟩
  have hr1 : r1 = process false (fuel + 2) worldBus rng1 t1 (q1.after w0, c0) := by show process _ _ _ _ _ (q1.after r0.2.1, r0.2.2) = _; rw [hr0]
  dsimp only at hf hroom
  have hsn0 : c0.sn.toU8.toNat = c.sn.toU8.toNat := by rw [k0.sn]
  have hp1 : Peace c.sn.toU8.toNat (q1.after w0) := Pause.peace p0 h1
  -- the ServerHello
  rcases step_hello hx false fuel rng1 t1 (o0.pause q1) (by apply Peace.quiet; rw [hsn0]; exact hp1) (a := a) (pub := pub) (by rw [k0.n]; exact ha)
    (by rw [hsn0]; exact (List.prefix_append _ _).trans ((List.prefix_append _ _).trans hf)) with ⟨_, h, -⟩ | ⟨w1, c1, e1, k1, s1, f1, g1, -⟩
  · cases h
  rw [hr1, e1]
  have hr1' := hr1.trans e1
  have hr2 : r2 = process false (fuel + 2) worldBus rng2 t2 (q2.after w1, c1) := by show process _ _ _ _ _ (q2.after r1.2.1, r1.2.2) = _; rw [hr1']
  have hsn1 : c1.sn.toU8.toNat = c.sn.toU8.toNat := by rw [k1.sn, k0.sn]
  have hp2 : Peace c.sn.toU8.toNat (q2.after w1) := Pause.peace (by have := k1.peace; rw [k0.sn] at this; exact this hp1) h2
  have hpre1 : (q1.after w0).chip.received c.sn.toU8.toNat <+: (q2.after w1).chip.received c.sn.toU8.toNat := by
    have := k1.pre
    rw [k0.sn] at this
    exact this.trans (q2.received w1 _)
  have hf2 : a.record2 c.psk dhe ch ++ a.record3 c.psk dhe ch <+: ((q2.after w1).chip.received c.sn.toU8.toNat).drop (p + a.record1.length) := by
    refine prefix_drop ?_ hpre1
    rw [← List.append_assoc]
    exact hf
  -- EncryptedExtensions
  rcases step_extensions hx false fuel rng2 t2 (g1.pause q2) (by apply Peace.quiet; rw [hsn1]; exact hp2) (a := a) (pub := pub)
    (by rw [k1.n, k0.n]; exact ha) (by rw [hsn1]; exact (List.prefix_append _ _).trans hf2) with ⟨_, h, -⟩ | ⟨w2, c2, e2, k2, s2, f2, g2, -⟩
  · cases h
  rw [hr2, e2]
  have hr2' := hr2.trans e2
  have hr3 : r3 = process false (fuel + 2) worldBus rng3 t3 (q3.after w2, c2) := by show process _ _ _ _ _ (q3.after r2.2.1, r2.2.2) = _; rw [hr2']
  have hsn2 : c2.sn = c.sn := by rw [k2.sn, k1.sn, k0.sn]
  have hp3 : Peace c.sn.toU8.toNat (q3.after w2) := Pause.peace (by have := k2.peace; rw [k1.sn, k0.sn] at this; exact this hp2) h3
  have hpre2 : (q2.after w1).chip.received c.sn.toU8.toNat <+: (q3.after w2).chip.received c.sn.toU8.toNat := by
    have := k2.pre
    rw [k1.sn, k0.sn] at this
    exact this.trans (q3.received w2 _)
  have hroom3 : 58 ≤ (q3.after w2).chip.txFsr c.sn.toU8.toNat := by
    have t2 := (q2.tx g1.waits.tx).2
    have t3 := (q3.tx g2.waits.tx).2
    rw [hsn2] at t3
    rw [hsn1] at t2
    rw [k0.sn] at f1
    rw [k1.sn, k0.sn] at f2
    change (q1.after w0).chip.txFsr c.sn.toU8.toNat ≤ _ at f1
    change (q2.after w1).chip.txFsr c.sn.toU8.toNat ≤ _ at f2
    exact Nat.le_trans hroom (Nat.le_trans f1 (Nat.le_trans t2 (Nat.le_trans f2 t3)))
  -- Finished
  rcases step_finished hx false fuel rng3 t3 (g2.pause q3) (by apply Peace.quiet; rw [hsn2]; exact hp3) (by rw [k2.n, k1.n, k0.n]; omega)
    (by rw [hsn2]; exact prefix_drop hf2 hpre2) (by rw [hsn2]; exact hroom3) with
    ⟨_, h, -⟩ | ⟨w3, c3, e3, k3, s3, rx3, tx3, st3, b3, -, ct3, sv3, rs3, ws3, -⟩
  · cases h
  rw [hr3, e3]
  have hsn3 : c3.sn = c.sn := by rw [k3.sn, hsn2]
  have hn3 : c3.rx.n = c.rx.n := by rw [k3.n, k2.n, k1.n, k0.n]
  refine ⟨rfl, rfl, rfl, ?_, ct3, ws3, rs3, hsn3, hn3, ?_, ?_⟩
  · show w3.chip.sent.map _ = _
    rw [s3, q3.sent, s2, q2.sent, s1, q1.sent, s0, List.append_assoc]
    rfl
  · have := k3.peace
    rw [hsn2] at this
    exact this hp3
  · refine ⟨by show decide (c3.state = .connected) = true; rw [st3]; rfl, sv3, by rw [ct3]; rfl, by rw [rs3]; decide, b3.q, ?_, ?_⟩
    · rw [hsn3]
      rw [hsn2] at rx3
      have : p + (a.flight c.psk dhe ch).length = p + a.record1.length + (a.record2 c.psk dhe ch).length + (a.record3 c.psk dhe ch).length := by
        unfold Answer.flight
        rw [List.length_append, List.length_append]
        omega
      rw [this]
      exact rx3
    · rw [hsn3]
      rw [hsn2] at tx3
      exact tx3

/-! ## An instance -/

namespace Witness

/-- The answer of the server: a ServerHello, and EncryptedExtensions without an extension. -/
def answer : Answer := ⟨shBody, [0, 0]⟩

theorem honest : Honest X answer () c1.rx.n where
  hello := ⟨4 :: List.replicate 64 8, ⟨List.replicate 32 3, 85, helloExtensions, [], by decide, by rw [List.append_nil]; rfl, by decide +kernel,
    by decide +kernel, ⟨by decide, rfl, by decide +kernel, by decide +kernel⟩⟩, rfl⟩
  extensions := ⟨0, [], [], by decide, rfl, .inl rfl, Nat.le_refl _⟩
  helloSize := by decide +kernel
  extensionsSize := by decide +kernel

theorem connecting : Connecting (Thm.tcpWorld 1 []) c1 0 where
  state := rfl
  fresh := ⟨rfl, rfl⟩
  host := by decide
  size := by decide +kernel
  fits := by decide +kernel
  rx := tcpWorld_rx 1 [] (by decide)
  tx := tcpWorld_tx 1 []
  free := by decide +kernel
  none := rfl

theorem connects : Connects (Thm.tcpWorld 1 []) c1 where
  con := by decide
  discon := by decide
  timeout := by decide
  calm := by intro es h; cases h
  still := by intro es h; cases h

/-- The socket of the example after the first call: an empty receive buffer of 2048 bytes, and room for the Finished. -/
theorem offered_chip :
    let ch := (process false 3 worldBus rng 0 (Thm.tcpWorld 1 [], c1)).2.1.chip
    ch.rxSize 3 = 2048 ∧ ch.rxRsr 3 = 0 ∧ ch.received 3 = [] ∧ 58 ≤ ch.txFsr 3 := by decide +kernel

/-- The records of the server arrive at once. -/
def arrival : Pause := ⟨[.arrive 3 (answer.flight c1.psk (X.dh rng.secret ()) (c1.offer rng).hello)], []⟩

theorem flight_length (psk dhe ch : Bytes) : (answer.flight psk dhe ch).length ≤ 2048 := by
  unfold Answer.flight Answer.record2 Answer.record3 Answer.record1 Answer.fin serverFinished
  rw [List.length_append, List.length_append, protect_length, protect_length]
  show _ + (_ + 22) + ((Spec.Tls.verifyData _ _).length + 4 + 22) ≤ _
  rw [verifyData_length]
  decide +kernel

theorem arrives (w : World) (f : Bytes) (hf : f.length ≤ 2048) (h1 : w.chip.rxSize 3 = 2048) (h2 : w.chip.rxRsr 3 = 0)
    (h3 : w.chip.received 3 = []) : ((Pause.mk [.arrive 3 f] []).after w).chip.received 3 = f := by
  show (w.chip.envStep (.arrive 3 f)).received 3 = _
  unfold Chip.envStep
  dsimp only
  rw [if_pos (by rw [h1, h2]; omega)]
  show (if 3 = 3 then w.chip.received 3 ++ f else w.chip.received 3) = _
  rw [h3]
  rfl

/-- Non-vacuity of `C89_handshake_completes`: all hypotheses are met. -/
example : X.Standard ∧ rng.Ok ∧ Connecting (Thm.tcpWorld 1 []) c1 0 ∧ Connects (Thm.tcpWorld 1 []) c1 ∧ Honest X answer () c1.rx.n ∧
    arrival.Calm c1.sn.toU8.toNat ∧
    let r0 := process false 3 worldBus rng 0 (Thm.tcpWorld 1 [], c1)
    answer.flight c1.psk (X.dh rng.secret ()) (c1.offer rng).hello <+: ((arrival.after r0.2.1).chip.received c1.sn.toU8.toNat).drop 0 ∧
    58 ≤ (arrival.after r0.2.1).chip.txFsr c1.sn.toU8.toNat := by
  refine ⟨standard, rng_ok, connecting, connects, honest, ?_, ?_⟩
  · intro es h bits h'
    simp only [arrival, List.mem_cons, List.not_mem_nil, or_false] at h
    subst h
    simp at h'
  · intro r0
    have hc := offered_chip
    dsimp only at hc
    obtain ⟨w', c', h, k, -, o, -⟩ := process_offer standard false 3 rng rng_ok 0 connecting.rx connecting.tx connecting.size connecting.host
      connecting.fresh connecting.fits connecting.free ⟨connects.con, connects.discon, connects.timeout⟩ connects.calm connects.still (by decide)
    have ho := o.waits.tx
    rw [k.sn] at ho
    have hr : r0 = (.ok (.callAfter 10), (w', c')) := h
    rw [h] at hc
    rw [hr]
    clear hr h
    dsimp only at hc ⊢
    obtain ⟨h1, h2, h3, h4⟩ := hc
    refine ⟨?_, ?_⟩
    · rw [List.drop_zero, show c1.sn.toU8.toNat = 3 from rfl, arrival, arrives w' _ (flight_length _ _ _) h1 h2 h3]
    · exact Nat.le_trans h4 (arrival.tx (w := w') (k := 3) ho).2

end Witness

end Verif.Tls
